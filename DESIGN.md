# Formal model of PLC-lang/StandardFunctions

The code under study (`/repo`) is the IEC 61131-3 standard function library of the
RuSTy compiler: a Rust crate (`src/*.rs`) of `extern "C"` functions plus a set of
Structured Text files (`iec61131-st/*.st`) that declare them or implement thin
wrappers and conversions.

The model and all proofs are in Lean 4 under `lean/Verif/`.

## 1. How code is modelled

* Every Rust/ST function becomes a total computable Lean function. `&mut` parameters
  become returned values. Every definition cites the lines it models.
* **Outcomes.** `Res α` has three constructors: `ok a`, `panic` (Rust panic:
  `unwrap`, `expect`, `panic!`, `unreachable!`, overflow checks; across
  `extern "C"` this aborts the PLC program) and `ub` (a raw pointer read or write
  outside the region it points to).
* **Build profile.** `Profile.debug | Profile.release` says whether integer
  overflow panics (debug) or wraps (release). Functions whose behaviour depends on
  it take the profile as an argument; theorems quantify over it.
* **Machine integers.** Values are `Int`/`Nat` plus an explicit range, or `BitVec`
  where bits matter. `as` casts are explicit wrap functions; checked operations
  return `Res`. `usize` is 64 bits wide, except in Model/WordSize.lean, where its width is a
  parameter (C173: it makes no difference to the string functions, the only ones that calculate with it).
* **Function blocks.** State record + one-call function; a history is the list of
  the inputs of all calls (of any length) folded from the all-zero instance.
* **Clock.** A timer call may read `Instant` twice; each call carries both
  readings, so a theorem about all histories is about all schedules of the clock.
* **Pointers.** A pointer is the list of units from the pointee to the end of its
  allocation (`null` = `none` where the code tests for it). Reads look for the
  terminator in that list, and are `ub` if there is none; writes outside are `ub`.
  Distinct arguments are distinct allocations (no aliasing between source and
  destination), except in Model/InPlace.lean, where the destination of a string
  function starts at the same address as one of its arguments and the iterators
  are run one character at a time. Model/StringStores.lean lists the contents of a
  destination after every store of a call.
* **Characters.** Rust `char` is Lean `Char` (both are Unicode scalar values).
* **Floats.** REAL/LREAL are bit patterns decoded to sign/exponent/mantissa.
* **chrono.** The crate's calendar and duration functions that the code calls are
  modelled after chrono 0.4 (not vendored in /repo, so this is part of the trusted
  base); the calendar itself is then *proved* against a successor-day specification.

Each topic has (i) `Model/*.lean` (the code), (ii) `Spec/*.lean` (small independent
vocabulary used in statements), (iii) `Proofs/*.lean` (helper lemmas), and
(iv) `Props/*.lean` (the property theorems, with `example`s showing that the
hypotheses are met by concrete non-trivial cases).

Where a property is false of the code, the negation is proved with a concrete
witness (`..._refuted`) and the strongest true restriction is proved as
`..._partial`; the MANIFEST status is then `partial`.

## 2. Plan per property

| id | modelled | proof |
|----|----------|-------|
| C01-C03 | `Signal`, `Trigger`, `R_TRIG`, `F_TRIG` | induction over the call history, positionwise characterisation, counting invariant |
| C04-C05 | `SR`, `RS` | induction over the history from the right (last decisive call) |
| C06-C10 | `ctu`, `ctd`, `ctud` generic over a bounded integer type, with overflow-checked `+1/-1` | refinement to saturating edge count; invariant `lo<=CV<=hi`; C10 expected false (edge memory frozen during R/LD) |
| C11-C13, C17 | `TimerParams`, `TON`, `TOF` with two clock readings per call | invariant relating start time/edge memory to the maximal final run of equal inputs |
| C14-C16 | `TP` | C14 expected false (`unreachable!` when idle with IN=FALSE); exact panic condition; C15 by induction during the pulse; C16 expected false when IN falls during the pulse |
| C18-C21 | `MAX__/MIN__/limit` incl. null/empty; floats as bit patterns | induction over the vector; order lemmas; C21 false for NaN input |
| C22-C24 | `SHL/SHR/ROL/ROR` on `BitVec w` | bitwise extensionality and arithmetic; C23 false |
| C25-C26 | `is_valid_bcd` loop, float classification | induction over digits; counting bijection |
| C27-C29 | `to_be/to_le/swap_bytes` for `n`-byte words, both host orders | list reversal lemmas; C28, C29 false |
| C30-C37 | chrono `NaiveDate` (cycle tables), `NaiveTime`, timestamps; `CONCAT_*`, `SPLIT_*`, `DAY_OF_WEEK` | civil-date function proved to start at 1970-01-01 and to advance by the successor-day function; inverses; C35/C36 false (leap-second ms, truncating casts) |
| C38-C42 | `Duration` arithmetic, checked mul/div, sign logic of float mul/div | integer arithmetic; C41 false |
| C43-C49, C58 | region pointers, UTF-8/UTF-16 decoders and encoders, all string functions | decoder/encoder inverse laws; list algebra; C47 false in release builds |
| C50-C51 | window search | self-synchronisation of UTF-8/UTF-16 |
| C52-C53 | `compare` | induction on argument list; order preservation of UTF-8; WSTRING part of C53 false |
| C54-C57 | `string_conversion.rs` | from decoder/encoder laws; C56, C57 false in part |
| C59-C63 | decimal formatting, `from_str_radix`, chrono `Display` formats | digit induction, inverse parser specifications; C62 false |
| C64-C66 | ST assignments as casts | modular arithmetic; C65 false at the minimum |
| C67 | `TIME()` as a function of the local time fields | arithmetic |
| C68 | `f32/f64::round` on bit patterns | rational value of the bit pattern |
| C69 | timers with a negative preset | from the timer invariant |
| C70 | `x_TO_BOOL` of the ST files as a generated table of casts | table lookup + modular arithmetic; false for the bit-string types whose conversion takes the lowest bit |
| C71 | `CONCAT_DT`, `SPLIT_DT` and their ST wrappers | composition of C32 and C35; false in leap-second milliseconds |
| C72-C73 | `Duration::mul_f32/f64`, `div_f32/f64`, `from_secs_f32/f64` for both rounding rules of std | exact rational error bound |
| C74 | string functions on WSTRINGs with unpaired surrogates | unique division of a unit list into elements |
| C75, C88 | ST wrappers `WSTRING_TO_x` through an 81-byte temporary | composition; false for long texts |
| C76-C82 | ST conversions between REAL/LREAL and integers as a generated table, `TRUNC`, `ABS` | floats as rational numbers; "nearest float" stated by comparison with all floats; C77, C79, C82 false in part |
| C83-C85 | `format!("{:.6}")`, `{:.6e}` and the case distinction of `x_TO_STRING_EXT` | digit induction against a rational specification; C85 false |
| C86-C87 | `str::parse::<f32/f64>` | grammar and correct rounding; C87 false |
| C89 | `sqrt` by integer square root with a sticky digit | nearest float to the real square root; the error bound by approximating the root with rationals (Props/SquareRoot) |
| C90 | decimal literals of `std::f32/f64::consts` | Mathlib bounds of pi and e |
| C91-C93 | `powi` (square and multiply) and the ST wrappers | induction over the loop, product of rounding errors; C93 false |
| C94 | ST functions `x_TO_STRING`, `x_TO_WSTRING` | every text is ASCII; composition with C54, C59, C61, C63, C83 |
| C95 | ST string functions with a 2049-unit result variable | exact outcome of the Rust function with that destination; false for the growing functions |
| C96 | ST comparison operators, whose parameters are 80-unit copies | C52 on the first 80 units; false beyond |
| C97 | `CHAR_TO_STRING` etc. | memory from the parameter on; false |
| C98-C99 | the functions that call libm, with the library as a parameter | under a contract of relative accuracy (`Spec/Libm.lean`), which a correctly rounding library is proved to meet |
| C100 | timers whose memory is zero, under both ways to store `None` | false for one of them; exact behaviour by induction over the history |
| C101 | declarations of the function blocks next to the Rust structs (generated table), C struct layout | general lemmas on C structs by induction over the fields; evaluation of the complete table for every platform that fits |
| C102 | declarations of the functions next to the exported Rust functions (generated table) | evaluation of the complete table; false for 69 names, SPLIT_LDT among them |
| C103 | histories of all function blocks with one call repeated | one-step commutation lifted through runFB; false for TP, exact restriction proved |
| C104 | timers with all clock readings shifted | simulation between the run and the shifted run |
| C105 | the two profiles of the model (checked and wrapping arithmetic) | range invariants of the operands; false for shifts and for DELETE/REPLACE with negative lengths |
| C106 | TON, TOF, TP on call histories with bounded gaps | first call of the run past PT, by induction on the run, and C11, C13, C15 |
| C107 | the function blocks side by side | simulation relations between the two states, by induction on the history |
| C108 | the TIME and DT arithmetic of C38-C41 | consequences of exact results (C38-C40), integer arithmetic |
| C109 | `MUL_TIME_FLOAT`, `DIV_TIME_FLOAT` (Model/DurationFloat.lean) | rounding to nearest is monotone; the sum of whole seconds and rounded fraction is monotone because the spacing of floats only grows (Proofs/DurationMono.lean) |
| C110 | `DATE_TO_STRING_EXT`, `TOD_TO_STRING_EXT`, `DT_TO_STRING_EXT`, `LT`, `EQ`, `GT` | fields of fixed width compare like numbers; the fraction compares three digits at a time; induction on days for the calendar |
| C111 | `TextProgram.run` (Props/StringPrograms.lean) over the functions of Model/StStrings.lean | simulation relation, induction on the number of steps |
| C112 | `FIND__STRING`, `FIND__WSTRING` | expected false; exact outcome from the first occurrence of the units |
| C113 | the table of ST conversions | induction over the chain from C64 |
| C114 | the table of ST float conversions, TRUNC, `STRING_TO_LREAL/REAL` | nearest float and nearest integer are monotone, with C76, C80, C81, C86 |
| C115 | string functions on arbitrary unit sequences with `ub` for every access outside the given memory | weights of decoded items bound the units written; induction over arguments; refuted for DELETE/REPLACE with negative lengths in release builds |
| C116 | one call of TON per scan with IN = NOT Q | simulation by a three-phase automaton, induction over the scans |
| C117 | two calls of TON per scan, the second with the output of the first | start times of both timers as abstract state, invariants over the scans |
| C118 | one call of CTU per scan with R = Q | invariant with three cases (normal, pulse, reset scan) |
| C119 | ADD_DT_TIME, SUB_DT_TIME, SUB_DATE_DATE, CONCAT_DATE, SPLIT_DT, DAY_OF_WEEK as modelled for C30-C39 | through the day number: civilDate is a bijection that commutes with the successor; the order and month/year lengths by induction over successors |
| C120 | MAX, MIN, LIMIT as modelled for C18-C21 | from the characterisation of MAX and MIN as the greatest and least argument |
| C121 | SHL, SHR, ROL, ROR, IS_VALID_BCD and the byte order functions as modelled for C22-C28 | arithmetic modulo 2^w, bitwise extensionality, induction over the digits |
| C122 | programs of FIND, LEN, LEFT, RIGHT, MID, INSERT, DELETE, REPLACE, CONCAT on both string types | from the character-level theorems of C45-C51 by first-occurrence arguments on lists; induction on the number of deletions |
| C123 | network of two TON and one RS | both timers reduced to their start times (C117), invariants over histories |
| C124 | the loop of powi for two bases in parallel, the rounding of products and of square roots. | relations preserved by multiplication carried through the loop; for the root, the error of the square compared with the spacing of the floats around the base; for the square of a root, three relative errors multiplied (Props/SquareRoot). |
| C125 | the chrono date algorithms already modelled for C30, C33 and C37. | the formula grows by one from each day to the next, so it is the day number; Zeller's congruence agrees with it modulo 7. |
| C126 | the counter model of C06; the program is a list of dividers of C118. | induction over the list: the pulses of one divider are a signal with long gaps that has one edge for every N edges of its input. |
| C127 | the models of R_TRIG, F_TRIG and RS of C01, C02 and C05; the program is a list of toggles. | induction over the history for one toggle; its output has half as many falling edges, so induction over the stages. |
| C128 | the models of C43 to C60, where a pointer is null or points to memory. | case analysis over the steps of each function; false where the code makes a slice of a null pointer. |
| C129 | two instances of the TON model of C11; the program is one call of each per scan. | simulation of the program by a machine with four phases, then induction over the scans. |
| C130 | the model of C72. | from the error bound of C72 and C73, which is below one half; for whole seconds every rounding step is shown to be exact. |
| C131 | the model of MAX and MIN of C18 and C20, called with two arguments. | induction over the samples. |
| C132 | the model of LIMIT of C19. | induction over the scans. |
| C133 | the model of FIND, LEFT, DELETE and CONCAT of C45 to C50. | induction over the fields, for any starting string. |
| C134 | the model of the functions of C45, C48, C59, C60 and C94 together with their result variables. | the theorems of C94 and C95 for the single calls, and the rules of decimal notation. |
| C135 | the model of the blocks of C01, C02 and C11; two clock readings per scan. | invariant: the timer runs since the first scan without a change. |
| C136 | the model of the block of C01 and the functions of C22 and C24. | induction over the scans. |
| C137 | the model of the blocks of C05 and C13; four clock readings per scan. | invariant: for every earlier scan with a direction on, this direction is still on, or its timer was started later and is compared with the clock. |
| C138 | the two loops over a list with MIN and MAX of the model as the only comparison. | each pass carries the greatest element of its range to the end (induction on the position), the part behind is sorted (induction on the passes); one proof for all types, on the values. |
| C139 | the loops over the ST-level LEFT, RIGHT, DELETE, CONCAT with the result variables of 2048 units; FIND and LEN. | induction on the rounds; a recursive specification of the replacement that is shown to be a flatMap for single characters. |
| C140 | the programs over the model of ADD_TIME, SUB_DT_DT and ADD_DT_TIME. | induction on the history; for the appointments the invariant that the next one is later than the last scan and the one before is not. |
| C141 | the program over the model of TON and TOF. | each timer is reduced to its start time; invariants relate them to the stretches of TRUE inputs of the history. |
| C142 | the two loops over the model of the conversions and the string functions. | induction on the list for the loop that writes; C133 and C60 for the one that reads. |
| C143 | the iterators of the string functions run one character at a time over a memory that the writes change (Model/InPlace.lean). | simulation for sources elsewhere; an invariant (the cursor is never in front of the character being read) for sources in the destination; refuted with literals for the rest. |
| C144 | the timer model of C11 to C17 over a history in which the clock readings start again in the middle. | the characterisations of the last call (which need no order of the clock readings); refuted with literals. |
| C145 | memory as bytes; loading and storing the fields at the offsets of repr(C); the ST side with the offsets of the ST compiler; programs as lists of steps. | load after store for every field type, fields apart (C101), values stay in their types, then induction on the steps. |
| C146 | as C145, with variables addressed by the names of the ST declaration. | C145 and C145_zeroed; the tables of names, types and offsets by decision over all declarations. |
| C147 | `extra_functions.rs` as in C58 to C62, C83; the destination is a list of bytes, an access behind it is `ub` | case analysis; TIME_TO_STRING by induction over its components |
| C148 | `Model/PowerFailure.lean`: the memory of an instance after each store of a call, in the order of the program; a field is stored at once. A compiler may change the order: the theorems with Torn are about any order | case analysis on the state and the place of the failure; for histories with failures induction with an invariant that bounds the difference of the counts now and after one more call |
| C149 | `Model/PowerFailure.lean`: the memory of an instance after each store of a call, in the order of the program; a field is stored at once. A compiler may change the order | case analysis on the branches of each block; the list of memories is split at the stores of the outputs |
| C150 | `Model/SharedInstance.lean`: a call of each block as its loads and stores, in the order of the program, each depending on the values loaded before; other calls may take place between any two of them | case analysis on the place of the interruption, the inputs and the state; `steps_call` ties the loads and stores to the call |
| C151 | `Model/SharedInstance.lean`: `Steps.interrupted` (one interruption by any number of calls), `Steps.runWith` (calls before every load and store), panics of `expect` and `unreachable!` | rules for what is left of a call, with invariants that the interrupting calls keep; structural recursion on `Steps`; witnesses for the refutations |
| C152 | `Model/SharedInstance.lean`: `Steps.runTasks`, in which a schedule says which task makes the next load or store; `tasks_call` ties a task on its own to its calls | rules for what is left of a task: a relation that all tasks keep (rely and guarantee) for edges, latches and timers, and a budget of counts that each task spends for counters; induction on the schedule; witnesses for the refutations |
| C153 | `Model/SharedInstance.lean`: `Steps.runTasks` | the largest number of loads and stores that are left of a call, by recursion on `Steps`; induction on the schedule; a call that needs all of them for each block |
| C154 | `Model/Counters.lean`; the program and the store in `Props/Buffer.lean` | invariant over the scans: CV is the number of things, QU and QD say whether it is N and 0, and the edge memories are the signals of the doors |
| C155 | `Model/Flanks.lean`; the program in `Props/StepChain.lean` | invariant over the scans: the outputs are those of a state machine with one number as its state |
| C156 | `Model/SharedInstance.lean`: `Steps.Core`, `Steps.Core.view`, `Steps.Turn`, `Steps.Core.step`, `Steps.runCores` (a buffer of stores for each core) | the rules of C152 (what the other tasks may change; how often a task still counts) with the stores in the buffers as further changes; for C156_latch_forgets all ways to mix the 18 loads and stores, by the kernel |
| C157 | the programs `calendarWeek`, `lastWeekday`, `firstWeekday` over the functions of `Model/DateTime.lean` and `Model/Duration.lean` | C30, C33, C37, C39, and the formula of C125 for the number of a day |
| C158 | `Model/StringStores.lean`: the functions of `Model/Strings.lean` with the destination after every store, in the order of the program | an invariant of the stores (new text up to the cursor, behind it old contents or a terminator), and two runs over different old contents side by side |
| C159 | `Model/WeakMemory.lean`: a relation over the loads and stores of `Model/SharedInstance.lean` that allows more than processors do | an invariant of the relation: every delayed store keeps the bounds whenever it reaches the memory, and so does every load of an earlier memory |
| C160 | the functions of `Model/Bits.lean` on a sender and a receiver; a telegram is the memory of the sender, field by field | the bytes of C27 in the memory of both hosts; induction over the fields |
| C161 | `Model/StringTasks.lean`: the stores of each call (from `Model/StringStores.lean`) to single units, mixed in any way | an invariant over the race (whose store a unit contains), a schedule unit by unit for the converse, and that no call stores a zero in front of its terminator |
| C162 | `Model/StringViews.lean`: the functions with a separate view of the argument for each search for the terminator, check and reading | what a view can be if the memory does not change; the number of units that are written for what is read, item by item |
| C163 | `Model/LocalClock.lean`: the time of day from a point in time and the distance from UTC; the programs are in `Props/Stopwatch.lean` | arithmetic modulo a day; induction over the scans; the set of midnights as the image of an interval of day numbers |
| C164 | the programs are in `Props/SortStrings.lean`; they call `GT`, `LT` and `EQ` of `Model/Strings.lean` | a pass puts the largest of the unsorted front in front of the sorted end; the bounds of the search as an invariant |
| C165 | the program is in `Props/Encoder.lean`; it calls `R_TRIG`, `F_TRIG` and `ctudCall` | an invariant: the memories of both triggers are track A, a counter input that was TRUE last time belongs to the present level of track A, CV is the number of cycles |
| C166 | `Model/ReadViews.lean`: what each pass over an argument reads is a list of its own; a unit is read once in a comparison of two slices | the passes agree where the states do; counterexamples with stores of single units |
| C167 | the programs are in `Props/GrayCode.lean`; they call `SHR` of `Model/Bits.lean` | the loop as a telescoping sum; neighbouring numbers differ in their lowest bits |
| C168 | the program is in `Props/Crc.lean`; it calls `SHL` of `Model/Bits.lean` | the register is linear in the bits; which register becomes zero, backwards over the bits of the difference; shifting is injective |
| C169 | the programs are in `Props/ReadBack.lean`; they call `St.MID`, `STRING_TO_DINT`, `CONCAT_DATE` and so on | the digits in the middle of the text (C95, C60), the values of CONCAT_DATE and CONCAT_TOD (C33, C35), the fraction filled with zeros |
| C170 | the program is in `Props/DelaySeries.lean`; it calls `TON.call` and `TOF.call` of `Model/Timers.lean` | what one timer does with a level, for both kinds of timers at once; induction over the timers |
| C171 | the program is in `Props/OneShot.lean`; it calls `R_TRIG.call`, `TON.call` and `RS.call` | the program as a state machine of the last input, the last output and the start time; induction over the scans |
| C172 | the programs are in `Props/Queue.lean`; they call `len` and `St.CONCAT`, `St.LEFT`, `St.RIGHT`, `St.DELETE` | refinement of a list of characters, induction over the operations; C95 for each call |
| C173 | `Model/WordSize.lean`: the functions with the width of `usize` as a parameter | the sum of length and position tested against the length of the string has one closed form for both widths |
| C174 | `Model/HalfStores.lean`: the halves of a 64-bit field and the memories between the two stores | each half in the memory is the half of a value of the output (C149: the old or the new one), then arithmetic with 2^32 |
| C175 | the programs are in `Props/Median.lean`; they call `minInt`, `maxInt`, `minFloat`, `maxFloat` | C18 and C20 for two values, one proof for all types; induction over the samples |
| C176 | the programs are in `Props/Spans.lean`; they call `SUB_DT_DT`, `DIV_TIME_INT`, `MUL_TIME_INT`, `ADD_DT_TIME`, `ADD_TIME` | C38 to C40 for each call, arithmetic; induction over the durations |
| C177 | the program is in `Props/Thermostat.lean`; it calls `RS.call` | the latch as a recursion over the scans; invariants of the closed loop by induction |
| C178 | the program is in `Props/Compressor.lean`; it calls `TON.call` twice in each scan | the program as a state machine of Q and two start times; induction over the scans |
| C179 | `TON.call`, `TOF.call`, `TP.call`, `ctuCall`, `ctdCall`, `ctudCall` | a relation between the two instances (equal but for the preset and what is computed anew) that every pair of calls keeps |
| C180 | `TON.call`, `TOF.call`, `SR.call`, `RS.call`, `ctuCall` | an invariant of the pair of instances (the start time of the one is not later than that of the other); induction over the calls |
| C181 | the program is in `Props/TwoHand.lean`; it calls `TON.call`, `RS.call` and `SR.call` in each scan | the program as a state machine of a start time and two bits; an invariant that says how the current stroke came about |
| C182 | the program is in `Props/FirstOut.lean`; it calls `RS.call` for each alarm in each scan | the program as a state machine of the lamps; induction over the scans |
| C183 | the program is in `Props/Voting.lean`; it calls `TON.call` and `SR.call` in each scan | the program as a state machine of a start time and a bit; the start time as the beginning of the current run of scans with differing sensors |
| C184 | the program is in `Props/TimedSteps.lean`; it calls `TON.call` in each scan | the program as a state machine of a start time, a bit and the step; the specification is the inductive predicate `StartsStep` |
| C185 | the memory model of C145 and C146; the specification is `written`, the last value a list of events writes into a variable | a table of the inputs of each block and the fact that no native function changes them, lifted to programs with C145 |
| C186 | the memory model of C145 and C146 | what an instance alone does with its events (C145) determines all readings; events that are no calls write inputs only |
| C187 | the memory model of C145 and C146; the specification is `callsOf`, the calls of an instance with the inputs in force | a block as a state machine with inputs that calls do not change (C185), by induction over the events; lifted to programs with C145 |

## 3. Trusted base

**Logic.** Lean 4.33.0's kernel, Mathlib (kernel checked). No axioms are added; no `sorry`, `native_decide` or `bv_decide`.
AXIOMS.md lists the axioms of every theorem named in MANIFEST.json (a subset of `propext`, `Classical.choice`, `Quot.sound`);
it is generated by `tools/gen_axioms.py`.

**Transcription.** That the Lean definitions say what the cited lines say. The tables of ST conversions
(`Model/StTable.lean`, `Model/StFloatTable.lean`) are generated from the `.st` files by `tools/gen_st.py`; one line per
function, with its source line. `Model/AbiTable.lean` (declarations next to native signatures) is generated by `tools/gen_abi.py`.

**Contracts of code outside /repo.** The dependencies are not vendored, so their behaviour is written down as Lean functions:

* *core/std integers*: `as` casts, overflow checks (debug) or wrapping (release), `rotate_*`, `swap_bytes`,
  `from_str_radix` (optional sign, at least one digit, overflow is an error), decimal `Display`.
* *core Unicode*: `str::from_utf8`, `chars`, `encode_utf8`, `char::decode_utf16`, `encode_utf16`. Proved equivalent to the
  arithmetic definition of UTF-8/UTF-16 in `Spec/Unicode.lean`.
* *core float formatting and parsing*: `{:.6}` and `{:.6e}` print the exact value rounded half to even; a sign is printed for
  a set sign bit, also of zero, and not for NaN (Rust >= 1.53). `parse` (Rust >= 1.55) accepts the documented grammar and rounds
  correctly. The saturation of exponents with more than about 65536 digits' worth of magnitude is not modelled.
* *IEEE 754*: `+ * /`, `sqrt` and conversions round to nearest, ties to even. Sign and payload of NaN results are not
  modelled. `f32/f64::round` is away from zero at ties. `as` casts from float to integer in Rust saturate.
* *std::time*: `Instant` never goes backwards (the theorems that need it say so); `elapsed` of an instant in the future is zero
  (Rust >= 1.60, needed for C144 only); `Duration` is seconds and nanoseconds;
  `mul_f32` and friends convert through `from_secs_f32/f64`, which truncates in Rust 1.60 to 1.62 and rounds since; the theorems hold
  for both (`DurRounding`). Older versions, which multiply by 1e9 in floating point first, are not modelled.
* *chrono 0.4* (0.4.31 or later): `NaiveDate::from_ymd_opt`, `NaiveTime::from_hms_milli/nano_opt` with the leap-second
  convention (sub-second up to 1 999 999 999 ns in second 59), `timestamp_nanos_opt`, `Weekday`, `checked_add/sub`, the `Display`
  formats. The calendar is proved against a successor-day specification, not taken from chrono.
* *compiler-builtins*: `powi` is the square-and-multiply loop of `__powisf2/__powidf2`.

**Contracts of the ST compiler** (RuSTy with LLVM):

* an assignment or argument of another integer type is truncated or extended; a parameter of a narrower type gets the truncated
  argument; float to integer is `fptosi/fptoui` (poison outside the range, modelled as `ub`), integer to float `sitofp/uitofp`,
  LREAL to REAL `fptrunc`;
* the result variable of a function is zero when the function starts;
* a STRING parameter by value is a copy of at most 80 units with a terminator;
* `ptr^` on a pointer to STRING reads 80 units.

**Memory of instances** (C145, Model/Memory.lean): a byte per address; `repr(C)` layout as in C101; integers in two's complement; how
an `Option<Instant>` is stored is a parameter of the model. A call loads all fields and stores all fields back; the native code
stores only those it changes. C11 to C17 and the circuits with timers start from an instance that is not running and whose memory of the
input is FALSE; whether zeroed memory is one depends on the toolchain (C100), and what a restart with old memory does is C144.

**Assumptions about callers.** Source and destination of a string function do not overlap, or (C143) start at the
same address; for the latter Rust makes no promise, since the code writes through a raw pointer into memory it holds a shared slice of, and the
model takes every read and write to happen where it stands in the program. Overlaps at different addresses are not modelled. A pointer that is not null points to
the list of units the theorem names.

## 4. Not modelled

* The platform's libm, which computes LN, LOG, EXP, SIN, COS, TAN, ASIN, ACOS, ATAN, ATAN2 and EXPT with a REAL or LREAL exponent. Rust
  leaves its results unspecified, so C98 and C99 speak about every library of a given accuracy.
* `SPLIT_LDT__x` (date_time_extra_functions.st:799-903) is marked `{external}` although it has a body, and no Rust function of that
  name exists, so it cannot be linked (C102). The other functions with an L prefix are plain delegations.
* Calling conventions and compiler correctness. (The shift and byte order functions are exported without `extern "C"`; for one or two
  numbers the Rust convention is the same.) Layout of function blocks and signatures of functions are C101 and C102.
* Concurrency: the library has no shared state; an instance of a function block belongs to its caller. C145 covers every order of calls
  on separate instances, as complete calls one after the other. Tasks that share an instance anyway are C149 to C153, C156 and C159: their loads and stores are mixed in
  any way, in the order of the program, with stores that the other cores see later (C156, the memory order of x86), or in other orders (C159, which does not allow a load to see a
  store that depends on it). A compiler that changes or leaves out loads and stores is not modelled. A field is loaded or stored at once (except in C174, where a 64-bit field
  is stored in two halves). A string that is read while it is
  written is C158.

## 5. Properties that are false of the code

Each has a theorem `Cnn_..._refuted` with a concrete witness, and the exact or strongest true part as `..._partial`. The note in
MANIFEST.json says what happens:
C10, C14, C16, C21, C23, C28, C29, C32, C35, C36, C41, C47, C53, C54, C56, C57, C62, C65, C70, C71, C75, C77, C79, C82,
C85, C87, C88, C93, C95, C96, C97, C100, C102, C103, C105, C112, C115, C118, C128, C130, C143, C144, C147, C148, C149, C150, C151, C152, C154, C156, C158, C159, C160, C161, C162, C163, C165, C166, C169, C174.

## 6. Tests of the model and of the theorems

`lean/Verif/Conformance/` runs the assertions of the project's own test suite (`/repo/tests/*.rs` and the unit tests in
`src/string_functions.rs`) on the model, about 1300 of them. They are tests that the transcription agrees with the code, not proofs,
and no claim refers to them. Left out are tests of the compiler, tests with undefined behaviour, and tests of the C math library.
`Conversions.lean` is generated by `tools/gen_conformance.py`.

`seeded/mutations.py` and `seeded/mutations2.py` to `mutations25.py` are lists of edits of the model, each the kind of change a real bug would make, with
the properties it breaks. `seeded/run.py` applies them one by one to a scratch copy and rebuilds it; `seeded/deep.py` does the same for single edits and looks behind
failing lemmas; `seeded/auto.py` makes small edits by itself (operators, constants, branches). `seeded/report.py` lists what was not caught. Results are in `seeded/LOG.jsonl`.
