import Verif.Model.Strings
/-
The functions that write a string, if another task changes their arguments meanwhile.

`EncodedCharsIter::decode` goes through the memory of its argument three times: it looks for the terminator, checks the units in front of it (STRING only), and its
iterator reads them when the characters are needed.  Each of these finds the units as they are at its own time.  LEFT, RIGHT and MID decode their argument twice, INSERT, DELETE and REPLACE
the first of theirs three times.  Simplifications: an iterator reads all units of its view, also those that `take` leaves out (core reads a character when it is needed), and a `&str` that has
become malformed is undefined at once.
-/
namespace Verif

/-- What one call of `decode` finds in its argument: the units that the search for the terminator passes (src/string_functions.rs:18-24), those that `from_utf8` checks (src/string_functions.rs:84)
and those that the iterator reads (src/string_functions.rs:74-76). -/
structure View where
  scanned : List Nat
  checked : List Nat
  read : List Nat
  deriving DecidableEq, Repr

/-- `EncodedCharsIter::decode(src)`, collected (src/string_functions.rs:79-87, 119-127). -/
def Codec.decodeView (k : Codec) (v : View) : Res (List k.Item) := do
  let _ ← k.decodeSlice v.checked
  match k.decodeSlice v.read with
  | .ok items => .ok items
  | _ => .ub

/-- `LEFT_EXT__STRING`, `LEFT_EXT__WSTRING` (src/string_functions.rs:236-250, 263-281). -/
def leftViews (k : Codec) (a b : View) (substr_len : Int) (dest : Ptr) : Res (List Nat) := do
  if substr_len < 0 then .panic
  else
    let substr_len := asUsize substr_len
    let nchars := (← k.decodeView a).length
    if nchars < substr_len then .panic
    else
      let chars ← k.decodeView b
      k.write (chars.take substr_len) dest

/-- `RIGHT_EXT__STRING`, `RIGHT_EXT__WSTRING` (src/string_functions.rs:294-308, 321-338). -/
def rightViews (k : Codec) (a b : View) (substr_len : Int) (dest : Ptr) : Res (List Nat) := do
  if substr_len < 0 then .panic
  else
    let substr_len := asUsize substr_len
    let nchars := (← k.decodeView a).length
    if nchars < substr_len then .panic
    else
      let chars ← k.decodeView b
      k.write (chars.drop (nchars - substr_len)) dest

/-- `MID_EXT__STRING`, `MID_EXT__WSTRING` (src/string_functions.rs:352-381, 395-424). -/
def midViews (p : Profile) (k : Codec) (a b : View) (substr_len start_index : Int) (dest : Ptr) : Res (List Nat) := do
  if substr_len < 0 then .panic
  else
    let substr_len := asUsize substr_len
    let start_index := asUsize start_index
    let nchars := (← k.decodeView a).length
    if start_index < 1 || start_index > nchars then .panic
    else
      let start_index := start_index - 1
      let sum ← IntTy.u64.arith p (substr_len + start_index)
      if nchars < sum then .panic
      else
        let chars ← k.decodeView b
        k.write ((chars.drop start_index).take substr_len) dest

/-- `INSERT_EXT__STRING`, `INSERT_EXT__WSTRING` (src/string_functions.rs:438-457, 471-490). -/
def insertViews (k : Codec) (a b c ins : View) (pos : Int) (dest : Ptr) : Res (List Nat) := do
  let nchars := (← k.decodeView a).length
  if pos < 0 || pos > asI32 nchars then .panic
  else
    let pos := asUsize pos
    let front ← k.decodeView b
    let middle ← k.decodeView ins
    let back ← k.decodeView c
    k.write (front.take pos ++ middle ++ back.drop pos) dest

/-- `DELETE_EXT__STRING`, `DELETE_EXT__WSTRING` (src/string_functions.rs:504-533, 547-577). -/
def deleteViews (p : Profile) (k : Codec) (a b c : View) (num_chars_to_delete pos : Int) (dest : Ptr) : Res (List Nat) := do
  let nchars := (← k.decodeView a).length
  if pos < 1 || pos > asI32 nchars then .panic
  else
    let pos := asUsize pos - 1
    let ndel := asUsize num_chars_to_delete
    let sum ← IntTy.u64.arith p (ndel + pos)
    if sum > nchars then .panic
    else
      let front ← k.decodeView b
      let back ← k.decodeView c
      k.write (front.take pos ++ back.drop sum.toNat) dest

/-- `REPLACE_EXT__STRING`, `REPLACE_EXT__WSTRING` (src/string_functions.rs:591-625, 639-672). -/
def replaceViews (p : Profile) (k : Codec) (a b c repl : View) (num_chars_to_replace pos : Int) (dest : Ptr) : Res (List Nat) := do
  let nbase := (← k.decodeView a).length
  if pos < 1 || pos > asI32 nbase then .panic
  else
    let pos := asUsize (pos - 1)
    let nreplace := asUsize num_chars_to_replace
    let sum ← IntTy.u64.arith p (nreplace + pos)
    if sum > nbase then .panic
    else
      let front ← k.decodeView b
      let middle ← k.decodeView repl
      let back ← k.decodeView c
      k.write (front.take pos ++ (middle ++ back.drop sum.toNat)) dest

/-- The loop of `CONCAT_EXT__STRING`, `CONCAT_EXT__WSTRING` (src/string_functions.rs:714-717, 762-765). -/
def concatLoopViews (k : Codec) : List View → Dest → Res Dest
  | [], d => pure d
  | v :: vs, d => do
    let items ← k.decodeView v
    let d ← k.encode items d
    concatLoopViews k vs d

/-- `CONCAT_EXT__STRING`, `CONCAT_EXT__WSTRING` with as many arguments as there are views (src/string_functions.rs:704-720, 752-768). -/
def concatViews (k : Codec) (dest : Ptr) (vs : List View) : Res (List Nat) :=
  match dest with
  | none => .panic
  | some mem => do
    let d ← concatLoopViews k vs ⟨[], mem⟩
    pure d.mem

end Verif
