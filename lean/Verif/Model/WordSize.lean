import Verif.Model.Strings
/-
The width of `usize`: the functions of src/string_functions.rs that compute with it, for controllers with 32-bit and with 64-bit addresses.
Model/Strings.lean is the 64-bit case.
-/
namespace Verif

/-- The width of an address of the target (`usize`, e.g. src/string_functions.rs:241). -/
inductive WordSize where
  | w32
  | w64
  deriving DecidableEq, Repr

/-- The type `usize` (e.g. src/string_functions.rs:241). -/
def WordSize.usize : WordSize → IntTy
  | .w32 => IntTy.u32
  | .w64 => IntTy.u64

/-- `x as usize` of an `i32` (e.g. src/string_functions.rs:241): the sign is extended to the width of `usize`. -/
def asUsizeOn (w : WordSize) (x : Int) : Nat := (w.usize.wrap x).toNat

/-- `LEFT_EXT__STRING`, `LEFT_EXT__WSTRING` (src/string_functions.rs:236-250, 263-281). -/
def leftOn (w : WordSize) (k : Codec) (src : Ptr) (substr_len : Int) (dest : Ptr) : Res (List Nat) := do
  if substr_len < 0 then .panic
  else
    let substr_len := asUsizeOn w substr_len
    let items ← k.decode src
    let nchars := items.length
    if nchars < substr_len then .panic
    else k.write (items.take substr_len) dest

/-- `RIGHT_EXT__STRING`, `RIGHT_EXT__WSTRING` (src/string_functions.rs:294-308, 321-338). -/
def rightOn (w : WordSize) (k : Codec) (src : Ptr) (substr_len : Int) (dest : Ptr) : Res (List Nat) := do
  if substr_len < 0 then .panic
  else
    let substr_len := asUsizeOn w substr_len
    let items ← k.decode src
    let nchars := items.length
    if nchars < substr_len then .panic
    else k.write (items.drop (nchars - substr_len)) dest

/-- `MID_EXT__STRING`, `MID_EXT__WSTRING` (src/string_functions.rs:352-381, 395-424). -/
def midOn (w : WordSize) (p : Profile) (k : Codec) (src : Ptr) (substr_len start_index : Int) (dest : Ptr) : Res (List Nat) := do
  if substr_len < 0 then .panic
  else
    let substr_len := asUsizeOn w substr_len
    let start_index := asUsizeOn w start_index
    let items ← k.decode src
    let nchars := items.length
    if start_index < 1 || start_index > nchars then .panic
    else
      let start_index := start_index - 1
      let sum ← w.usize.arith p (substr_len + start_index)
      if nchars < sum then .panic
      else k.write ((items.drop start_index).take substr_len) dest

/-- `INSERT_EXT__STRING`, `INSERT_EXT__WSTRING` (src/string_functions.rs:438-457, 471-490). -/
def insertOn (w : WordSize) (k : Codec) (src_base src_to_insert : Ptr) (pos : Int) (dest : Ptr) : Res (List Nat) := do
  let base ← k.decode src_base
  let nchars := base.length
  if pos < 0 || pos > asI32 nchars then .panic
  else
    let pos := asUsizeOn w pos
    let ins ← k.decode src_to_insert
    k.write (base.take pos ++ ins ++ base.drop pos) dest

/-- `DELETE_EXT__STRING`, `DELETE_EXT__WSTRING` (src/string_functions.rs:504-533, 547-577).
`num_chars_to_delete as usize` is taken without a test of the sign. -/
def deleteOn (w : WordSize) (p : Profile) (k : Codec) (src : Ptr) (num_chars_to_delete pos : Int) (dest : Ptr) : Res (List Nat) := do
  let items ← k.decode src
  let nchars := items.length
  if pos < 1 || pos > asI32 nchars then .panic
  else
    let pos := asUsizeOn w pos - 1
    let ndel := asUsizeOn w num_chars_to_delete
    let sum ← w.usize.arith p (ndel + pos)
    if sum > nchars then .panic
    else k.write (items.take pos ++ items.drop sum.toNat) dest

/-- `REPLACE_EXT__STRING`, `REPLACE_EXT__WSTRING` (src/string_functions.rs:591-625, 639-672). -/
def replaceOn (w : WordSize) (p : Profile) (k : Codec) (src_base src_replacement : Ptr) (num_chars_to_replace pos : Int) (dest : Ptr) :
    Res (List Nat) := do
  let base ← k.decode src_base
  let nbase := base.length
  if pos < 1 || pos > asI32 nbase then .panic
  else
    let pos := asUsizeOn w (pos - 1)
    let nreplace := asUsizeOn w num_chars_to_replace
    let sum ← w.usize.arith p (nreplace + pos)
    if sum > nbase then .panic
    else
      let repl ← k.decode src_replacement
      k.write (base.take pos ++ (repl ++ base.drop sum.toNat)) dest

end Verif
