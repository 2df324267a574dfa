import Verif.Model.Basic
/-
The Unicode encoding forms, stated arithmetically (Unicode Standard, D90-D92), and what it
means for a buffer to hold a string.  Independent of the model (only the outcome type `Res` is shared).
-/
namespace Verif.Spec

/-- UTF-8: the bytes of one character. -/
def utf8Char (c : Char) : List Nat :=
  let n := c.toNat
  if n < 0x80 then [n]
  else if n < 0x800 then [0xC0 + n / 64, 0x80 + n % 64]
  else if n < 0x10000 then [0xE0 + n / 4096, 0x80 + n / 64 % 64, 0x80 + n % 64]
  else [0xF0 + n / 262144, 0x80 + n / 4096 % 64, 0x80 + n / 64 % 64, 0x80 + n % 64]

/-- UTF-16: the units of one character. -/
def utf16Char (c : Char) : List Nat :=
  let n := c.toNat
  if n < 0x10000 then [n]
  else [0xD800 + (n - 0x10000) / 1024, 0xDC00 + (n - 0x10000) % 1024]

/-- The UTF-8 bytes of a text. -/
def utf8 (t : List Char) : List Nat := t.flatMap utf8Char

/-- The UTF-16 units of a text. -/
def utf16 (t : List Char) : List Nat := t.flatMap utf16Char

/-- High (leading) and low (trailing) surrogate units. -/
def IsHigh (u : Nat) : Prop := 0xD800 ≤ u ∧ u ≤ 0xDBFF
def IsLow (u : Nat) : Prop := 0xDC00 ≤ u ∧ u ≤ 0xDFFF

instance (u : Nat) : Decidable (IsHigh u) := by unfold IsHigh; infer_instance
instance (u : Nat) : Decidable (IsLow u) := by unfold IsLow; infer_instance

/-- Number of places where a high surrogate is directly followed by a low one. -/
def pairs : List Nat → Nat
  | u :: v :: l => (if IsHigh u ∧ IsLow v then 1 else 0) + pairs (v :: l)
  | _ => 0

/-- The memory a pointer points to holds the units `s` followed by a terminator: the first
zero is directly behind `s`, whatever comes after it. -/
def Holds (mem s : List Nat) : Prop := (∀ u ∈ s, u ≠ 0) ∧ ∃ tail, mem = s ++ 0 :: tail

/-- The two string types. -/
inductive StrTy where
  | STRING
  | WSTRING
  deriving DecidableEq, Repr

/-- The code units of a text in a string type: UTF-8 for STRING, UTF-16 for WSTRING. -/
def StrTy.units : StrTy → List Char → List Nat
  | .STRING => utf8
  | .WSTRING => utf16

/-- What a call that writes the string `s` to a buffer `dest` has to do: `s`, one terminator,
and everything behind it as it was; a buffer without room for both is overrun. -/
def store (dest s : List Nat) : Res (List Nat) :=
  if s.length < dest.length then .ok (s ++ 0 :: dest.drop (s.length + 1)) else .ub

/-- A text without the NUL character. -/
def NoNul (t : List Char) : Prop := ∀ c ∈ t, c.toNat ≠ 0

instance (t : List Char) : Decidable (NoNul t) := by unfold NoNul; infer_instance

end Verif.Spec

namespace Verif.Spec

/-- `b` occurs in `a` at the (0-based) character index `k`, and at no smaller one. -/
def FirstOccurrence (a b : List Char) (k : Nat) : Prop :=
  b <+: a.drop k ∧ ∀ j < k, ¬ b <+: a.drop j

/-- `b` occurs in `a`. -/
def Occurs (a b : List Char) : Prop := ∃ k, b <+: a.drop k

end Verif.Spec

namespace Verif.Spec

/-- An element of an arbitrary WSTRING: a character, or a surrogate without its partner. -/
inductive W16 where
  | char (c : Char)
  | lone (u : Nat)
  deriving DecidableEq, Repr

/-- The units of an element. -/
def W16.units : W16 → List Nat
  | .char c => utf16Char c
  | .lone u => [u]

/-- No unpaired high surrogate directly before an unpaired low one (they would be a pair). -/
def NoSplitPair : List W16 → Prop
  | .lone u :: .lone v :: l => ¬ (IsHigh u ∧ IsLow v) ∧ NoSplitPair (.lone v :: l)
  | _ :: l => NoSplitPair l
  | [] => True

/-- The units `s` consist of the elements `es`: every surrogate pair is one character, every
other surrogate an element of its own. -/
structure Elements (s : List Nat) (es : List W16) : Prop where
  units : s = es.flatMap W16.units
  lone : ∀ u, W16.lone u ∈ es → IsHigh u ∨ IsLow u
  pairs : NoSplitPair es

end Verif.Spec
