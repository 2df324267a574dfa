import Verif.Model.Unicode
/-
src/string_functions.rs and src/string_conversion.rs.

A `*const u8` / `*const u16` is `none` for null and `some mem` for a pointer to the first of
the units `mem`, which reach to the end of the allocation.  Arguments are separate
allocations: a destination does not overlap a source (Model/InPlace.lean is about the calls in
which the destination is one of the arguments).  `usize` is 64 bits wide.  What a call has written before it panics is not represented here, as a panic in an
`extern "C"` function ends the process; Model/StringStores.lean lists the stores of a call one by one.
-/
namespace Verif

/-- A raw pointer to units (the parameters in src/string_functions.rs). -/
abbrev Ptr := Option (List Nat)

/-- `get_null_terminated_len` (src/string_functions.rs:18-24) for a non-null pointer: counts
units up to the first zero; runs out of the allocation (`none`) if there is none. -/
def nulLen : List Nat → Option Nat
  | [] => none
  | u :: l => if u == 0 then some 0 else (nulLen l).map (· + 1)

/-- `get_null_terminated_len` (src/string_functions.rs:18-24). -/
def get_null_terminated_len : Ptr → Res Nat
  | none => .ok 0
  | some mem =>
    match nulLen mem with
    | some n => .ok n
    | none => .ub

/-- `ptr_to_slice` (src/string_functions.rs:35-38).  `from_raw_parts` of a null pointer is
undefined behaviour even for length 0. -/
def ptr_to_slice (src : Ptr) : Res (List Nat) := do
  let nbytes ← get_null_terminated_len src
  match src with
  | none => .ub
  | some mem => pure (mem.take nbytes)

/-- The two instances of the traits `CharsDecoder` and `CharsEncoder`
(src/string_functions.rs:43-64): what decoding a slice yields and which units an item is
written as. -/
structure Codec where
  Item : Type
  decodeSlice : List Nat → Res (List Item)
  units : Item → Res (List Nat)

/-- `CharsDecoder<u8>` (src/string_functions.rs:79-87): `from_utf8(slice).unwrap().chars()`, and
`CharsEncoder<u8>` (89-102): `char.encode_utf8`. -/
def codec8 : Codec where
  Item := Char
  decodeSlice slice := if from_utf8 slice then .ok (chars slice) else .panic
  units c := .ok (encode_utf8 c)

/-- `CharsDecoder<u16>` (src/string_functions.rs:119-127): `decode_utf16`, and
`CharsEncoder<u16>` (104-117): `c.unwrap().encode_utf16`, which panics on an unpaired
surrogate. -/
def codec16 : Codec where
  Item := Option Char
  decodeSlice slice := .ok (decode_utf16 slice)
  units c := do
    let c ← Res.unwrap c
    pure (encode_utf16 c)

/-- `EncodedCharsIter::decode(src)`, collected (src/string_functions.rs:79-87, 119-127). -/
def Codec.decode (k : Codec) (src : Ptr) : Res (List k.Item) := do
  let slice ← ptr_to_slice src
  k.decodeSlice slice

/-- The destination while it is written: the units behind the cursor and the units from the
cursor to the end of the allocation (src/string_functions.rs:90-100, 105-116). -/
structure Dest where
  written : List Nat
  room : List Nat
  deriving DecidableEq, Repr

/-- `**dest = unit; *dest = dest.add(1)` (src/string_functions.rs:95-96, 110-111). -/
def Dest.put (d : Dest) (unit : Nat) : Res Dest :=
  match d.room with
  | [] => .ub
  | _ :: rest => .ok ⟨d.written ++ [unit], rest⟩

/-- `**dest = 0` without moving the cursor (src/string_functions.rs:100, 115). -/
def Dest.terminate (d : Dest) : Res Dest :=
  match d.room with
  | [] => .ub
  | _ :: rest => .ok ⟨d.written, 0 :: rest⟩

/-- The allocation after the call (src/string_functions.rs:90-100, 105-116). -/
def Dest.mem (d : Dest) : List Nat := d.written ++ d.room

/-- `CharsEncoder::encode` (src/string_functions.rs:89-102, 104-117). -/
def Codec.encode (k : Codec) (items : List k.Item) (d : Dest) : Res Dest := do
  let d ← items.foldlM (fun d c => do
    let slice ← k.units c
    slice.foldlM Dest.put d) d
  d.terminate

/-- A destination pointer before the first write (src/string_functions.rs:90-100, 105-116). It is not tested; null has room
for nothing, so that the first write to it is undefined. -/
def openDest : Ptr → Res Dest
  | none => .ok ⟨[], []⟩
  | some mem => .ok ⟨[], mem⟩

/-- `chars.encode(&mut dest)` into a fresh destination pointer (src/string_functions.rs:90-100, 105-116). -/
def Codec.write (k : Codec) (items : List k.Item) (dest : Ptr) : Res (List Nat) := do
  let d ← openDest dest
  let d ← k.encode items d
  pure d.mem

/-- `x as i32` (e.g. src/string_functions.rs:142). -/
def asI32 (x : Int) : Int := IntTy.i32.wrap x
/-- `x as usize` of an `i32` (e.g. src/string_functions.rs:241). -/
def asUsize (x : Int) : Nat := (IntTy.u64.wrap x).toNat

/-- `LEN__STRING`, `LEN__WSTRING` (src/string_functions.rs:141-143, 157-159). -/
def len (k : Codec) (src : Ptr) : Res Int := do
  let items ← k.decode src
  pure (asI32 items.length)

/-- `haystack.windows(needle.len()).position(|window| window == needle)`
(src/string_functions.rs:178-181, 210-213): least offset of a window equal to the needle. -/
def position (needle : List Nat) : List Nat → Option Nat
  | [] => none
  | u :: l =>
    if (u :: l).length < needle.length then none
    else if (u :: l).take needle.length == needle then some 0
    else (position needle l).map (· + 1)

/-- `FIND__STRING` (src/string_functions.rs:170-192). -/
def FIND__STRING (p : Profile) (src1 src2 : Ptr) : Res Int := do
  let haystack ← ptr_to_slice src1
  let needle ← ptr_to_slice src2
  if needle.length > haystack.length || haystack.isEmpty || needle.isEmpty then pure 0
  else
    match position needle haystack with
    | some idx => do
      let chars ← codec8.decodeSlice (haystack.take idx)
      IntTy.i32.arith p (asI32 chars.length + 1)
    | none => pure 0

/-- `FIND__WSTRING` (src/string_functions.rs:202-223). -/
def FIND__WSTRING (p : Profile) (src1 src2 : Ptr) : Res Int := do
  let haystack ← ptr_to_slice src1
  let needle ← ptr_to_slice src2
  if needle.length > haystack.length || haystack.isEmpty || needle.isEmpty then pure 0
  else
    match position needle haystack with
    | some idx => do
      let chars ← codec16.decodeSlice (haystack.take idx)
      IntTy.i32.arith p (asI32 chars.length + 1)
    | none => pure 0

/-- `LEFT_EXT__STRING`, `LEFT_EXT__WSTRING` (src/string_functions.rs:236-250, 263-281). -/
def left (k : Codec) (src : Ptr) (substr_len : Int) (dest : Ptr) : Res (List Nat) := do
  if substr_len < 0 then .panic
  else
    let substr_len := asUsize substr_len
    let items ← k.decode src
    let nchars := items.length
    if nchars < substr_len then .panic
    else k.write (items.take substr_len) dest

/-- `RIGHT_EXT__STRING`, `RIGHT_EXT__WSTRING` (src/string_functions.rs:294-308, 321-338). -/
def right (k : Codec) (src : Ptr) (substr_len : Int) (dest : Ptr) : Res (List Nat) := do
  if substr_len < 0 then .panic
  else
    let substr_len := asUsize substr_len
    let items ← k.decode src
    let nchars := items.length
    if nchars < substr_len then .panic
    else k.write (items.drop (nchars - substr_len)) dest

/-- `MID_EXT__STRING`, `MID_EXT__WSTRING` (src/string_functions.rs:352-381, 395-424). -/
def mid (p : Profile) (k : Codec) (src : Ptr) (substr_len start_index : Int) (dest : Ptr) :
    Res (List Nat) := do
  if substr_len < 0 then .panic
  else
    let substr_len := asUsize substr_len
    let start_index := asUsize start_index
    let items ← k.decode src
    let nchars := items.length
    if start_index < 1 || start_index > nchars then .panic
    else
      let start_index := start_index - 1
      let sum ← IntTy.u64.arith p (substr_len + start_index)
      if nchars < sum then .panic
      else k.write ((items.drop start_index).take substr_len) dest

/-- `INSERT_EXT__STRING`, `INSERT_EXT__WSTRING` (src/string_functions.rs:438-457, 471-490).
The text to insert is decoded after the position check. -/
def insert (k : Codec) (src_base src_to_insert : Ptr) (pos : Int) (dest : Ptr) :
    Res (List Nat) := do
  let base ← k.decode src_base
  let nchars := base.length
  if pos < 0 || pos > asI32 nchars then .panic
  else
    let pos := asUsize pos
    let ins ← k.decode src_to_insert
    k.write (base.take pos ++ ins ++ base.drop pos) dest

/-- `DELETE_EXT__STRING`, `DELETE_EXT__WSTRING` (src/string_functions.rs:504-533, 547-577).
`num_chars_to_delete as usize` is taken without a test of the sign. -/
def delete (p : Profile) (k : Codec) (src : Ptr) (num_chars_to_delete pos : Int) (dest : Ptr) :
    Res (List Nat) := do
  let items ← k.decode src
  let nchars := items.length
  if pos < 1 || pos > asI32 nchars then .panic
  else
    let pos := asUsize pos - 1
    let ndel := asUsize num_chars_to_delete
    let sum ← IntTy.u64.arith p (ndel + pos)
    if sum > nchars then .panic
    else k.write (items.take pos ++ items.drop sum.toNat) dest

/-- `REPLACE_EXT__STRING`, `REPLACE_EXT__WSTRING` (src/string_functions.rs:591-625, 639-672). -/
def replace (p : Profile) (k : Codec) (src_base src_replacement : Ptr)
    (num_chars_to_replace pos : Int) (dest : Ptr) : Res (List Nat) := do
  let base ← k.decode src_base
  let nbase := base.length
  if pos < 1 || pos > asI32 nbase then .panic
  else
    let pos := asUsize (pos - 1)
    let nreplace := asUsize num_chars_to_replace
    let sum ← IntTy.u64.arith p (nreplace + pos)
    if sum > nbase then .panic
    else
      let repl ← k.decode src_replacement
      k.write (base.take pos ++ (repl ++ base.drop sum.toNat)) dest

/-- The loop of `CONCAT_EXT__STRING`/`__WSTRING` (src/string_functions.rs:714-717, 762-765):
`n` more arguments are read from `argv`. -/
def concatLoop (k : Codec) : Nat → List Ptr → Dest → Res Dest
  | 0, _, d => .ok d
  | _ + 1, [], _ => .ub
  | n + 1, a :: argv, d => do
    let items ← k.decode a
    let d ← k.encode items d
    concatLoop k n argv d

/-- `CONCAT_EXT__STRING`, `CONCAT_EXT__WSTRING` (src/string_functions.rs:704-720, 752-768);
`CONCAT__STRING`, `CONCAT__WSTRING` (687-689, 735-737) only drop the return value. -/
def concat (k : Codec) (dest : Ptr) (argc : Int) (argv : Option (List Ptr)) :
    Res (List Nat) := do
  match argv, dest with
  | some argv, some mem => do
    let d ← concatLoop k argc.toNat argv ⟨[], mem⟩
    pure d.mem
  | _, _ => .panic

/-- `<[T] as Ord>::cmp`: first difference of the common prefix, then the lengths (src/string_functions.rs:784, 922). -/
def cmpSlices : List Nat → List Nat → Ordering
  | [], [] => .eq
  | [], _ :: _ => .lt
  | _ :: _, [] => .gt
  | a :: l, b :: r => if a < b then .lt else if a > b then .gt else cmpSlices l r

/-- The loop of `compare` (src/string_functions.rs:780-788): `n` more arguments. -/
def compareLoop (predicate : Ordering → Bool) : Nat → List Nat → List Ptr → Res Bool
  | 0, _, _ => .ok true
  | _ + 1, _, [] => .ub
  | n + 1, previous, a :: argv => do
    let current ← ptr_to_slice a
    if !(predicate (cmpSlices previous current)) then pure false
    else compareLoop predicate n current argv

/-- `compare` (src/string_functions.rs:771-791).  A null `argv` is dereferenced (`ub`). -/
def compare (argc : Int) (argv : Option (List Ptr)) (predicate : Ordering → Bool) :
    Res Bool := do
  if argc < 2 then .panic
  else
    match argv with
    | some (a :: argv) => do
      let previous ← ptr_to_slice a
      compareLoop predicate (argc - 1).toNat previous argv
    | _ => .ub

/-- `GT__STRING`, `GT__WSTRING` (src/string_functions.rs:801-815). -/
def GT (argc : Int) (argv : Option (List Ptr)) : Res Bool := compare argc argv Ordering.isGT
/-- `GE__STRING`, `GE__WSTRING` (src/string_functions.rs:825-839). -/
def GE (argc : Int) (argv : Option (List Ptr)) : Res Bool := compare argc argv Ordering.isGE
/-- `EQ__STRING`, `EQ__WSTRING` (src/string_functions.rs:849-863). -/
def EQ (argc : Int) (argv : Option (List Ptr)) : Res Bool := compare argc argv Ordering.isEq
/-- `LE__STRING`, `LE__WSTRING` (src/string_functions.rs:873-887). -/
def LE (argc : Int) (argv : Option (List Ptr)) : Res Bool := compare argc argv Ordering.isLE
/-- `LT__STRING`, `LT__WSTRING` (src/string_functions.rs:897-911). -/
def LT (argc : Int) (argv : Option (List Ptr)) : Res Bool := compare argc argv Ordering.isLT
/-- `NE__STRING`, `NE__WSTRING` (src/string_functions.rs:921-935). -/
def NE (string1 string2 : Ptr) : Res Bool := do
  let a ← ptr_to_slice string1
  let b ← ptr_to_slice string2
  pure (cmpSlices a b).isNe

/-- `WSTRING_TO_STRING_EXT` (src/string_conversion.rs:13-20). -/
def WSTRING_TO_STRING_EXT (src dest : Ptr) : Res (List Nat) := do
  let items ← codec16.decode src
  codec8.write (items.map (fun c => c.getD (Char.ofNat 0xFFFD))) dest

/-- `STRING_TO_WSTRING_EXT` (src/string_conversion.rs:32-44): writes no terminator. -/
def STRING_TO_WSTRING_EXT (src dest : Ptr) : Res (List Nat) := do
  let items ← codec8.decode src
  let d ← openDest dest
  let d ← items.foldlM (fun d c => (encode_utf16 c).foldlM Dest.put d) d
  pure d.mem

/-- `WCHAR_TO_CHAR` (src/string_conversion.rs:51-62): `decode_utf16` of one unit yields exactly
one item, whose UTF-8 form is written to the front of an array of `0xFF`. -/
def WCHAR_TO_CHAR (input : Nat) : Nat :=
  match (decode_utf16 [input]).map (fun c => c.getD (Char.ofNat 0xFFFD)) with
  | [res] => (encode_utf8 res).headD 0xFF
  | _ => 0xFF

/-- `CHAR_TO_WCHAR` (src/string_conversion.rs:69-74): `u8` into `char` is U+0000..U+00FF. -/
def CHAR_TO_WCHAR (input : Nat) : Nat := (encode_utf16 (Char.ofNat input)).headD 0xFFFF

end Verif
