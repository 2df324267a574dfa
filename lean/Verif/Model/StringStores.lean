import Verif.Model.Strings
/-
The functions that write a string, store by store: what a destination contains while it is written, for a task that reads it
meanwhile and for a power failure in the middle of a call.

The definitions follow those in Model/Strings.lean; in addition they list the destination as it is after every store.  Stores take place in the order of
the program and one unit at a time; a compiler may put several into one, or change their order.  The conversions of numbers, dates and times to text
(src/extra_functions.rs), which copy pieces of text, are not included.
-/
namespace Verif

/-- A computation, and the destination after each of its stores (the raw pointer `dest` in src/string_functions.rs:90-100, 105-116). -/
structure Traced (α : Type) where
  stores : List Dest
  result : Res α

namespace Traced

/-- One computation after the other (`;` in src/string_functions.rs:90-100). A panic ends the call. -/
def bind {α β : Type} (x : Traced α) (f : α → Traced β) : Traced β :=
  match x.result with
  | .ok a => ⟨x.stores ++ (f a).stores, (f a).result⟩
  | .panic => ⟨x.stores, .panic⟩
  | .ub => ⟨x.stores, .ub⟩

instance : Monad Traced where
  pure a := ⟨[], .ok a⟩
  bind := bind

/-- A computation that stores nothing in the destination (e.g. src/string_functions.rs:241-245). -/
def quiet {α : Type} (r : Res α) : Traced α := ⟨[], r⟩

end Traced

/-- A store: the destination after it, if it is within the allocation (src/string_functions.rs:95-96, 100, 110-111, 115). -/
def Traced.store (r : Res Dest) : Traced Dest :=
  match r with
  | .ok d => ⟨[d], .ok d⟩
  | r => ⟨[], r⟩

/-- The units of one character (src/string_functions.rs:94-97, 109-112). -/
def putStores : List Nat → Dest → Traced Dest
  | [], d => pure d
  | u :: us, d => do
    let d ← .store (d.put u)
    putStores us d

/-- The loop of `CharsEncoder::encode` (src/string_functions.rs:91-98, 106-113). -/
def Codec.itemsStores (k : Codec) : List k.Item → Dest → Traced Dest
  | [], d => pure d
  | c :: items, d => do
    let slice ← .quiet (k.units c)
    let d ← putStores slice d
    k.itemsStores items d

/-- `CharsEncoder::encode` (src/string_functions.rs:89-102, 104-117). -/
def Codec.encodeStores (k : Codec) (items : List k.Item) (d : Dest) : Traced Dest := do
  let d ← k.itemsStores items d
  .store d.terminate

/-- `chars.encode(&mut dest)` (src/string_functions.rs:90-100, 105-116). -/
def Codec.writeStores (k : Codec) (items : List k.Item) (dest : Ptr) : Traced Dest := do
  let d ← .quiet (openDest dest)
  k.encodeStores items d

/-- `LEFT_EXT__STRING`, `LEFT_EXT__WSTRING` (src/string_functions.rs:236-250, 263-281). -/
def leftStores (k : Codec) (src : Ptr) (substr_len : Int) (dest : Ptr) : Traced Dest := do
  if substr_len < 0 then .quiet .panic
  else
    let substr_len := asUsize substr_len
    let items ← .quiet (k.decode src)
    let nchars := items.length
    if nchars < substr_len then .quiet .panic
    else k.writeStores (items.take substr_len) dest

/-- `RIGHT_EXT__STRING`, `RIGHT_EXT__WSTRING` (src/string_functions.rs:294-308, 321-338). -/
def rightStores (k : Codec) (src : Ptr) (substr_len : Int) (dest : Ptr) : Traced Dest := do
  if substr_len < 0 then .quiet .panic
  else
    let substr_len := asUsize substr_len
    let items ← .quiet (k.decode src)
    let nchars := items.length
    if nchars < substr_len then .quiet .panic
    else k.writeStores (items.drop (nchars - substr_len)) dest

/-- `MID_EXT__STRING`, `MID_EXT__WSTRING` (src/string_functions.rs:352-381, 395-424). -/
def midStores (p : Profile) (k : Codec) (src : Ptr) (substr_len start_index : Int) (dest : Ptr) : Traced Dest := do
  if substr_len < 0 then .quiet .panic
  else
    let substr_len := asUsize substr_len
    let start_index := asUsize start_index
    let items ← .quiet (k.decode src)
    let nchars := items.length
    if start_index < 1 || start_index > nchars then .quiet .panic
    else
      let start_index := start_index - 1
      let sum ← .quiet (IntTy.u64.arith p (substr_len + start_index))
      if nchars < sum then .quiet .panic
      else k.writeStores ((items.drop start_index).take substr_len) dest

/-- `INSERT_EXT__STRING`, `INSERT_EXT__WSTRING` (src/string_functions.rs:438-457, 471-490). -/
def insertStores (k : Codec) (src_base src_to_insert : Ptr) (pos : Int) (dest : Ptr) : Traced Dest := do
  let base ← .quiet (k.decode src_base)
  let nchars := base.length
  if pos < 0 || pos > asI32 nchars then .quiet .panic
  else
    let pos := asUsize pos
    let ins ← .quiet (k.decode src_to_insert)
    k.writeStores (base.take pos ++ ins ++ base.drop pos) dest

/-- `DELETE_EXT__STRING`, `DELETE_EXT__WSTRING` (src/string_functions.rs:504-533, 547-577). -/
def deleteStores (p : Profile) (k : Codec) (src : Ptr) (num_chars_to_delete pos : Int) (dest : Ptr) : Traced Dest := do
  let items ← .quiet (k.decode src)
  let nchars := items.length
  if pos < 1 || pos > asI32 nchars then .quiet .panic
  else
    let pos := asUsize pos - 1
    let ndel := asUsize num_chars_to_delete
    let sum ← .quiet (IntTy.u64.arith p (ndel + pos))
    if sum > nchars then .quiet .panic
    else k.writeStores (items.take pos ++ items.drop sum.toNat) dest

/-- `REPLACE_EXT__STRING`, `REPLACE_EXT__WSTRING` (src/string_functions.rs:591-625, 639-672). -/
def replaceStores (p : Profile) (k : Codec) (src_base src_replacement : Ptr) (num_chars_to_replace pos : Int) (dest : Ptr) :
    Traced Dest := do
  let base ← .quiet (k.decode src_base)
  let nbase := base.length
  if pos < 1 || pos > asI32 nbase then .quiet .panic
  else
    let pos := asUsize (pos - 1)
    let nreplace := asUsize num_chars_to_replace
    let sum ← .quiet (IntTy.u64.arith p (nreplace + pos))
    if sum > nbase then .quiet .panic
    else
      let repl ← .quiet (k.decode src_replacement)
      k.writeStores (base.take pos ++ (repl ++ base.drop sum.toNat)) dest

/-- The loop of `CONCAT_EXT__STRING`, `CONCAT_EXT__WSTRING` (src/string_functions.rs:714-717, 762-765): an argument is decoded when those
before it have been written; each of them has left a terminator, which the next one overwrites. -/
def concatLoopStores (k : Codec) : Nat → List Ptr → Dest → Traced Dest
  | 0, _, d => pure d
  | _ + 1, [], _ => .quiet .ub
  | n + 1, a :: argv, d => do
    let items ← .quiet (k.decode a)
    let d ← k.encodeStores items d
    concatLoopStores k n argv d

/-- `CONCAT_EXT__STRING`, `CONCAT_EXT__WSTRING` (src/string_functions.rs:704-720, 752-768). -/
def concatStores (k : Codec) (dest : Ptr) (argc : Int) (argv : Option (List Ptr)) : Traced Dest :=
  match argv, dest with
  | some argv, some mem => concatLoopStores k argc.toNat argv ⟨[], mem⟩
  | _, _ => .quiet .panic

/-- `WSTRING_TO_STRING_EXT` (src/string_conversion.rs:13-20). -/
def WSTRING_TO_STRING_EXT_stores (src dest : Ptr) : Traced Dest := do
  let items ← .quiet (codec16.decode src)
  codec8.writeStores (items.map (fun c => c.getD (Char.ofNat 0xFFFD))) dest

/-- The loop of `STRING_TO_WSTRING_EXT` (src/string_conversion.rs:35-41). -/
def wideStores : List Char → Dest → Traced Dest
  | [], d => pure d
  | c :: items, d => do
    let d ← putStores (encode_utf16 c) d
    wideStores items d

/-- `STRING_TO_WSTRING_EXT` (src/string_conversion.rs:32-44): writes no terminator. -/
def STRING_TO_WSTRING_EXT_stores (src dest : Ptr) : Traced Dest := do
  let items ← .quiet (codec8.decode src)
  let d ← .quiet (openDest dest)
  wideStores items d

end Verif
