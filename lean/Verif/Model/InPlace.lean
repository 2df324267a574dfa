import Verif.Model.Strings
/-
The functions of src/string_functions.rs that write a string, for calls in which the destination is the same variable as one of the arguments,
as in `DELETE_EXT(s, 1, 3, s)`.

Model/Strings.lean collects the decoded characters before it writes; here the iterators are run as the code runs them: one character is read
from memory as it is at that moment, encoded and written before the next one is read.  The destination starts at the same address as the
argument it shares its memory with.  (Rust does not promise anything about memory that is written through a raw pointer while a shared slice of it
exists; the definitions below are the meaning of the code when every read and write takes place where it stands in the program.)
`skip` steps over one character after the other; that of the standard library counts bytes that are not continuation bytes, which is the same as
long as the memory is valid UTF-8, as it is in all theorems.
-/
namespace Verif

/-- An argument: the variable that is also the destination, or a pointer to another allocation (the parameters in src/string_functions.rs:438-443). -/
inductive Arg
  | self
  | other (p : Ptr)

/-- The pointer, when the variable contains `mem` (src/string_functions.rs:438-443). -/
def Arg.ptr (mem : List Nat) : Arg → Ptr
  | .self => some mem
  | .other p => p

/-- A slice that is being read: the units from `r` to `e` of the variable, or what is left of a slice elsewhere (the `iter` in
src/string_functions.rs:66-69). -/
inductive Source
  | self (r e : Nat)
  | other (rest : List Nat)

/-- The units that are left, when the variable contains `mem` (src/string_functions.rs:66-69). -/
def Source.rest (mem : List Nat) : Source → List Nat
  | .self r e => (mem.take e).drop r
  | .other l => l

/-- Moves behind the next `n` units (src/string_functions.rs:74-76). -/
def Source.advance (n : Nat) : Source → Source
  | .self r e => .self (r + n) e
  | .other l => .other (l.drop n)

/-- A codec and one step of its decoder: the next item and how many units it takes (src/string_functions.rs:74-76). -/
structure LazyCodec where
  codec : Codec
  next : List Nat → Option (codec.Item × Nat)

/-- `core::str::Chars::next` (`next_code_point`), one step of `chars` (src/string_functions.rs:84). -/
def next8 : List Nat → Option (Char × Nat)
  | [] => none
  | x :: l =>
    if x < 128 then some (Char.ofNat x, 1)
    else
      match l with
      | [] => none
      | y :: l =>
        if x < 0xE0 then some (Char.ofNat (((x &&& 0x1F) <<< 6) ||| (y &&& 0x3F)), 2)
        else
          match l with
          | [] => none
          | z :: l =>
            let y_z := ((y &&& 0x3F) <<< 6) ||| (z &&& 0x3F)
            if x < 0xF0 then some (Char.ofNat (((x &&& 0x1F) <<< 12) ||| y_z), 3)
            else
              match l with
              | [] => none
              | w :: _ => some (Char.ofNat ((((x &&& 0x1F) &&& 7) <<< 18) ||| ((y_z <<< 6) ||| (w &&& 0x3F))), 4)

/-- `core::char::DecodeUtf16::next`, one step of `decode_utf16`.  The iterator keeps the unit behind an unpaired surrogate in a buffer; here it
is read again (src/string_functions.rs:124). -/
def next16 : List Nat → Option (Option Char × Nat)
  | [] => none
  | u :: l =>
    if (u &&& 0xF800) != 0xD800 then some (some (Char.ofNat u), 1)
    else if u ≥ 0xDC00 then some (none, 1)
    else
      match l with
      | [] => some (none, 1)
      | u2 :: _ =>
        if u2 < 0xDC00 || u2 > 0xDFFF then some (none, 1)
        else some (some (Char.ofNat ((((u &&& 0x3FF) <<< 10) ||| (u2 &&& 0x3FF)) + 0x10000)), 2)

/-- src/string_functions.rs:79-102. -/
def lazy8 : LazyCodec := ⟨codec8, next8⟩
/-- src/string_functions.rs:104-127. -/
def lazy16 : LazyCodec := ⟨codec16, next16⟩

/-- The variable that is written and the position of the cursor `dest` in it (src/string_functions.rs:90-100, 105-116). -/
structure Var where
  mem : List Nat
  w : Nat
  deriving DecidableEq, Repr

/-- `**dest = unit; *dest = dest.add(1)` (src/string_functions.rs:95-96, 110-111). -/
def Var.put (v : Var) (unit : Nat) : Res Var :=
  if v.w < v.mem.length then .ok ⟨v.mem.set v.w unit, v.w + 1⟩ else .ub

/-- `**dest = 0` (src/string_functions.rs:100, 115). -/
def Var.terminate (v : Var) : Res Var :=
  if v.w < v.mem.length then .ok ⟨v.mem.set v.w 0, v.w⟩ else .ub

/-- An iterator `decode(src).skip(skip).take(limit)`; `limit = none` for one without `take` (e.g. src/string_functions.rs:375-377). -/
structure Stage where
  src : Source
  skip : Nat
  limit : Option Nat

/-- The loop of `CharsEncoder::encode` over one stage of a chain (src/string_functions.rs:91-98, 106-113).  The first argument bounds the number of
characters. -/
def Stage.run (k : LazyCodec) : Nat → Stage → Var → Res Var
  | 0, _, v => .ok v
  | fuel + 1, s, v =>
    if s.limit = some 0 then .ok v
    else
      match k.next (s.src.rest v.mem) with
      | none => .ok v
      | some (c, n) =>
        if s.skip > 0 then run k fuel ⟨s.src.advance n, s.skip - 1, s.limit⟩ v
        else do
          let slice ← k.codec.units c
          let v ← slice.foldlM Var.put v
          run k fuel ⟨s.src.advance n, 0, s.limit.map (· - 1)⟩ v

/-- A bound for the number of characters of a stage: the number of units of its slice (src/string_functions.rs:91, 106). -/
def Stage.size (s : Stage) : Nat :=
  match s.src with
  | .self r e => e - r
  | .other l => l.length

/-- `CharsEncoder::encode` for a chain of iterators (src/string_functions.rs:89-102, 104-117). -/
def LazyCodec.encode (k : LazyCodec) (stages : List Stage) (v : Var) : Res Var := do
  let v ← stages.foldlM (fun v s => s.run k (s.size + 1) v) v
  v.terminate

/-- `EncodedCharsIter::decode(src)` (src/string_functions.rs:79-87, 119-127): measures the string and, for UTF-8, checks it; nothing else is read
yet.  The second component is what `count` returns. -/
def LazyCodec.open (k : LazyCodec) (mem : List Nat) (a : Arg) : Res (Source × Nat) := do
  let slice ← ptr_to_slice (a.ptr mem)
  let items ← k.codec.decodeSlice slice
  match a with
  | .self => pure (.self 0 slice.length, items.length)
  | .other _ => pure (.other slice, items.length)

/-- The variable after `chain.encode(&mut dest)` (e.g. src/string_functions.rs:246-247). -/
def LazyCodec.write (k : LazyCodec) (stages : List Stage) (mem : List Nat) : Res (List Nat) := do
  let v ← k.encode stages ⟨mem, 0⟩
  pure v.mem

/-- `LEFT_EXT__STRING`, `LEFT_EXT__WSTRING` (src/string_functions.rs:236-250, 263-281) with the variable `mem` as destination. -/
def leftOver (k : LazyCodec) (mem : List Nat) (src : Arg) (substr_len : Int) : Res (List Nat) := do
  if substr_len < 0 then .panic
  else
    let substr_len := asUsize substr_len
    let (src, nchars) ← k.open mem src
    if nchars < substr_len then .panic
    else k.write [⟨src, 0, some substr_len⟩] mem

/-- `RIGHT_EXT__STRING`, `RIGHT_EXT__WSTRING` (src/string_functions.rs:294-308, 321-338). -/
def rightOver (k : LazyCodec) (mem : List Nat) (src : Arg) (substr_len : Int) : Res (List Nat) := do
  if substr_len < 0 then .panic
  else
    let substr_len := asUsize substr_len
    let (src, nchars) ← k.open mem src
    if nchars < substr_len then .panic
    else k.write [⟨src, nchars - substr_len, none⟩] mem

/-- `MID_EXT__STRING`, `MID_EXT__WSTRING` (src/string_functions.rs:352-381, 395-424). -/
def midOver (p : Profile) (k : LazyCodec) (mem : List Nat) (src : Arg) (substr_len start_index : Int) : Res (List Nat) := do
  if substr_len < 0 then .panic
  else
    let substr_len := asUsize substr_len
    let start_index := asUsize start_index
    let (src, nchars) ← k.open mem src
    if start_index < 1 || start_index > nchars then .panic
    else
      let start_index := start_index - 1
      let sum ← IntTy.u64.arith p (substr_len + start_index)
      if nchars < sum then .panic
      else k.write [⟨src, start_index, some substr_len⟩] mem

/-- `INSERT_EXT__STRING`, `INSERT_EXT__WSTRING` (src/string_functions.rs:438-457, 471-490). -/
def insertOver (k : LazyCodec) (mem : List Nat) (src_base src_to_insert : Arg) (pos : Int) : Res (List Nat) := do
  let (base, nchars) ← k.open mem src_base
  if pos < 0 || pos > asI32 nchars then .panic
  else
    let pos := asUsize pos
    let (ins, _) ← k.open mem src_to_insert
    k.write [⟨base, 0, some pos⟩, ⟨ins, 0, none⟩, ⟨base, pos, none⟩] mem

/-- `DELETE_EXT__STRING`, `DELETE_EXT__WSTRING` (src/string_functions.rs:504-533, 547-577). -/
def deleteOver (p : Profile) (k : LazyCodec) (mem : List Nat) (src : Arg) (num_chars_to_delete pos : Int) : Res (List Nat) := do
  let (src, nchars) ← k.open mem src
  if pos < 1 || pos > asI32 nchars then .panic
  else
    let pos := asUsize pos - 1
    let ndel := asUsize num_chars_to_delete
    let sum ← IntTy.u64.arith p (ndel + pos)
    if sum > nchars then .panic
    else k.write [⟨src, 0, some pos⟩, ⟨src, sum.toNat, none⟩] mem

/-- `REPLACE_EXT__STRING`, `REPLACE_EXT__WSTRING` (src/string_functions.rs:591-625, 639-672). -/
def replaceOver (p : Profile) (k : LazyCodec) (mem : List Nat) (src_base src_replacement : Arg) (num_chars_to_replace pos : Int) :
    Res (List Nat) := do
  let (base, nbase) ← k.open mem src_base
  if pos < 1 || pos > asI32 nbase then .panic
  else
    let pos := asUsize (pos - 1)
    let nreplace := asUsize num_chars_to_replace
    let sum ← IntTy.u64.arith p (nreplace + pos)
    if sum > nbase then .panic
    else
      let (repl, _) ← k.open mem src_replacement
      k.write [⟨base, 0, some pos⟩, ⟨repl, 0, none⟩, ⟨base, sum.toNat, none⟩] mem

/-- The loop of `CONCAT_EXT__STRING`, `CONCAT_EXT__WSTRING` (src/string_functions.rs:714-717, 762-765). -/
def concatLoopOver (k : LazyCodec) : Nat → List Arg → Var → Res Var
  | 0, _, v => .ok v
  | _ + 1, [], _ => .ub
  | n + 1, a :: argv, v => do
    let (src, _) ← k.open v.mem a
    let v ← k.encode [⟨src, 0, none⟩] v
    concatLoopOver k n argv v

/-- `CONCAT_EXT__STRING`, `CONCAT_EXT__WSTRING` (src/string_functions.rs:704-720, 752-768) and `CONCAT__STRING`, `CONCAT__WSTRING` (687-689,
735-737). -/
def concatOver (k : LazyCodec) (mem : List Nat) (argc : Int) (argv : List Arg) : Res (List Nat) := do
  let v ← concatLoopOver k argc.toNat argv ⟨mem, 0⟩
  pure v.mem

end Verif
