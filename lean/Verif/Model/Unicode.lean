import Verif.Model.Basic
/-
The pieces of Rust's `core` that src/string_functions.rs and src/string_conversion.rs use to
go between code units and `char`s.  They are not part of /repo; the definitions below
transcribe the published `core` sources, and Proofs/Unicode.lean proves them against the
definition of the encoding forms in Spec/Unicode.lean.  A byte (`u8`) or 16-bit unit (`u16`)
is a `Nat`; a Rust `char` is a Lean `Char` (both are the Unicode scalar values).
-/
namespace Verif

/-- `core::str::validations`: is `b` a continuation byte, `0x80..=0xBF` (inside `from_utf8`, src/string_functions.rs:84). -/
def utf8Cont (b : Nat) : Bool := 0x80 ≤ b && b ≤ 0xBF

/-- `core::str::from_utf8(..).is_ok()` (`run_utf8_validation`): the byte-range table of
well-formed UTF-8.  Used at src/string_functions.rs:84 and 184. -/
def from_utf8 : List Nat → Bool
  | [] => true
  | b0 :: l =>
    if b0 < 0x80 then from_utf8 l
    else if 0xC2 ≤ b0 && b0 ≤ 0xDF then
      match l with
      | b1 :: l => utf8Cont b1 && from_utf8 l
      | _ => false
    else if 0xE0 ≤ b0 && b0 ≤ 0xEF then
      match l with
      | b1 :: b2 :: l =>
        ((b0 == 0xE0 && 0xA0 ≤ b1 && b1 ≤ 0xBF) ||
         (0xE1 ≤ b0 && b0 ≤ 0xEC && 0x80 ≤ b1 && b1 ≤ 0xBF) ||
         (b0 == 0xED && 0x80 ≤ b1 && b1 ≤ 0x9F) ||
         (0xEE ≤ b0 && b0 ≤ 0xEF && 0x80 ≤ b1 && b1 ≤ 0xBF)) &&
        utf8Cont b2 && from_utf8 l
      | _ => false
    else if 0xF0 ≤ b0 && b0 ≤ 0xF4 then
      match l with
      | b1 :: b2 :: b3 :: l =>
        ((b0 == 0xF0 && 0x90 ≤ b1 && b1 ≤ 0xBF) ||
         (0xF1 ≤ b0 && b0 ≤ 0xF3 && 0x80 ≤ b1 && b1 ≤ 0xBF) ||
         (b0 == 0xF4 && 0x80 ≤ b1 && b1 ≤ 0x8F)) &&
        utf8Cont b2 && utf8Cont b3 && from_utf8 l
      | _ => false
    else false

/-- `core::str::Chars` (`next_code_point`): decodes without checking, as it is only reached
through a validated `&str`.  (A truncated sequence, impossible there, ends the iteration.) (src/string_functions.rs:84). -/
def chars : List Nat → List Char
  | [] => []
  | x :: l =>
    if x < 128 then Char.ofNat x :: chars l
    else
      match l with
      | [] => []
      | y :: l =>
        if x < 0xE0 then
          Char.ofNat (((x &&& 0x1F) <<< 6) ||| (y &&& 0x3F)) :: chars l
        else
          match l with
          | [] => []
          | z :: l =>
            let y_z := ((y &&& 0x3F) <<< 6) ||| (z &&& 0x3F)
            if x < 0xF0 then
              Char.ofNat (((x &&& 0x1F) <<< 12) ||| y_z) :: chars l
            else
              match l with
              | [] => []
              | w :: l =>
                Char.ofNat ((((x &&& 0x1F) &&& 7) <<< 18) ||| ((y_z <<< 6) ||| (w &&& 0x3F)))
                  :: chars l

/-- `char::encode_utf8` (`encode_utf8_raw`), used at src/string_functions.rs:93. -/
def encode_utf8 (c : Char) : List Nat :=
  let code := c.toNat
  if code < 0x80 then [code]
  else if code < 0x800 then
    [((code >>> 6) &&& 0x1F) ||| 0xC0, (code &&& 0x3F) ||| 0x80]
  else if code < 0x10000 then
    [((code >>> 12) &&& 0x0F) ||| 0xE0, ((code >>> 6) &&& 0x3F) ||| 0x80, (code &&& 0x3F) ||| 0x80]
  else
    [((code >>> 18) &&& 0x07) ||| 0xF0, ((code >>> 12) &&& 0x3F) ||| 0x80,
     ((code >>> 6) &&& 0x3F) ||| 0x80, (code &&& 0x3F) ||| 0x80]

/-- `char::encode_utf16` (`encode_utf16_raw`), used at src/string_functions.rs:108 and
src/string_conversion.rs:36, 72. -/
def encode_utf16 (c : Char) : List Nat :=
  let code := c.toNat
  if code &&& 0xFFFF == code then [code]
  else
    let code := code - 0x10000
    [0xD800 ||| (code >>> 10), 0xDC00 ||| (code &&& 0x3FF)]

/-- `core::char::decode_utf16`: `some c` is `Ok(c)`, `none` is `Err(DecodeUtf16Error)` (the
code of the unpaired surrogate inside the error is never used by /repo and dropped here).
Used at src/string_functions.rs:124, 215 and src/string_conversion.rs:53. -/
def decode_utf16 : List Nat → List (Option Char)
  | [] => []
  | u :: l =>
    if (u &&& 0xF800) != 0xD800 then some (Char.ofNat u) :: decode_utf16 l
    else if u ≥ 0xDC00 then none :: decode_utf16 l
    else
      match l with
      | [] => [none]
      | u2 :: l' =>
        if u2 < 0xDC00 || u2 > 0xDFFF then none :: decode_utf16 (u2 :: l')
        else some (Char.ofNat ((((u &&& 0x3FF) <<< 10) ||| (u2 &&& 0x3FF)) + 0x10000))
          :: decode_utf16 l'

end Verif
