import Verif.Model.Basic
/-
Text literals of the project's tests as memory.
-/
namespace Verif.Conformance

/-- The bytes of a Rust `&str`. -/
def s8 (s : String) : List Nat := s.toUTF8.data.toList.map UInt8.toNat

/-- The units of `str::encode_utf16`. -/
def s16 (s : String) : List Nat :=
  s.toList.flatMap fun c =>
    if c.toNat < 0x10000 then [c.toNat] else [0xD800 + (c.toNat - 0x10000) / 0x400, 0xDC00 + (c.toNat - 0x10000) % 0x400]

/-- A pointer to a terminated STRING. -/
def p8 (s : String) : Option (List Nat) := some (s8 s ++ [0])

/-- A pointer to a terminated WSTRING. -/
def p16 (s : String) : Option (List Nat) := some (s16 s ++ [0])

/-- What the tests read from a string variable: the units before the first 0. -/
def text (r : Res (List Nat)) : Res (List Nat) := do
  let m ← r
  .ok (m.takeWhile (· ≠ 0))

/-- Memory of `n` zero units. -/
def zeros (n : Nat) : Option (List Nat) := some (List.replicate n 0)

/-- A STRING / WSTRING variable with room for `n` units, to which a longer text is assigned. -/
def cut (n : Nat) (r : Res (List Nat)) : Res (List Nat) := do
  let m ← text r
  .ok (m.take n)

end Verif.Conformance
