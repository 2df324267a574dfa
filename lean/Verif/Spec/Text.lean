import Mathlib.Data.Nat.Digits.Defs
import Verif.Spec.Unicode
import Verif.Spec.Calendar
/-
Text of numbers, durations, dates and times, as bytes.
-/
namespace Verif.Spec

/-- The bytes of an ASCII text. -/
def ascii (s : String) : List Nat := s.toList.map Char.toNat

/-- Decimal notation without leading zeros (`Nat.digits` is least significant digit first). -/
def decimal (n : Nat) : List Nat :=
  if n = 0 then ascii "0" else (Nat.digits 10 n).reverse.map (48 + ·)

/-- Decimal notation of an integer: a minus sign for negative numbers, no plus sign. -/
def signedDecimal (x : Int) : List Nat :=
  if x < 0 then ascii "-" ++ decimal x.natAbs else decimal x.natAbs

/-- Decimal notation, padded with zeros in front to at least `w` digits. -/
def padded (w n : Nat) : List Nat := List.replicate (w - (decimal n).length) 48 ++ decimal n

/-- Byte `c` is a digit of value `d` in base `radix`; letters of both cases. -/
def IsDigit (radix c d : Nat) : Prop :=
  d < radix ∧ ((d < 10 ∧ c = 48 + d) ∨ (10 ≤ d ∧ (c = 97 + (d - 10) ∨ c = 65 + (d - 10))))

/-- `s` is a non-empty sequence of digits of value `n` in base `radix`. -/
def Numeral (radix : Nat) (s : List Nat) (n : Nat) : Prop :=
  ∃ ds, List.Forall₂ (IsDigit radix) s ds ∧ ds ≠ [] ∧ n = Nat.ofDigits radix ds.reverse

/-- The prefixes that select a base. -/
def prefixes : List (String × Nat) :=
  [("", 10), ("16#", 16), ("0x", 16), ("0X", 16), ("8#", 8), ("2#", 2), ("0b", 2), ("0B", 2)]

/-- The signs. -/
def signs : List (String × Int) := [("", 1), ("+", 1), ("-", -1)]

/-- `s` is an integer literal of value `v`: base prefix, optional sign, digits. -/
def IntLiteral (s : List Nat) (v : Int) : Prop :=
  ∃ pre ∈ prefixes, ∃ sign ∈ signs, ∃ digits n,
    s = ascii pre.1 ++ ascii sign.1 ++ digits ∧ Numeral pre.2 digits n ∧ v = sign.2 * n

/-- A duration in mixed units. -/
structure Dhms where
  d : Nat
  h : Nat
  m : Nat
  s : Nat
  ms : Nat
  us : Nat
  ns : Nat
  deriving DecidableEq

/-- Every component below the day is in its range. -/
def Dhms.Proper (c : Dhms) : Prop :=
  c.h < 24 ∧ c.m < 60 ∧ c.s < 60 ∧ c.ms < 1000 ∧ c.us < 1000 ∧ c.ns < 1000

/-- The duration in nanoseconds. -/
def Dhms.nanos (c : Dhms) : Nat :=
  (((((c.d * 24 + c.h) * 60 + c.m) * 60 + c.s) * 1000 + c.ms) * 1000 + c.us) * 1000 + c.ns

/-- A component with its unit; nothing for 0. -/
def component (n : Nat) (unit : String) : List Nat := if n = 0 then [] else decimal n ++ ascii unit

/-- e.g. `1d3h5ms`. -/
def Dhms.text (c : Dhms) : List Nat :=
  component c.d "d" ++ component c.h "h" ++ component c.m "m" ++ component c.s "s" ++
    component c.ms "ms" ++ component c.us "us" ++ component c.ns "ns"

/-- YYYY-MM-DD. -/
def dateText (d : Date) : List Nat :=
  padded 4 d.year.toNat ++ ascii "-" ++ padded 2 d.month ++ ascii "-" ++ padded 2 d.day

/-- The fraction of a second: nothing, 3, 6 or 9 digits, the fewest that show `ns` exactly. -/
def fractionText (ns : Nat) : List Nat :=
  if ns = 0 then []
  else if 1000000 ∣ ns then ascii "." ++ padded 3 (ns / 1000000)
  else if 1000 ∣ ns then ascii "." ++ padded 6 (ns / 1000)
  else ascii "." ++ padded 9 ns

/-- HH:MM:SS with fraction; `tod` is the number of nanoseconds since midnight. -/
def timeText (tod : Nat) : List Nat :=
  padded 2 (tod / 3600000000000) ++ ascii ":" ++ padded 2 (tod / 60000000000 % 60) ++ ascii ":" ++
    padded 2 (tod / 1000000000 % 60) ++ fractionText (tod % 1000000000)

end Verif.Spec
