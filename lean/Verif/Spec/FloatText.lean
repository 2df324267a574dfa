import Verif.Spec.Text
import Verif.Spec.Float
/-
Text of REAL and LREAL.
-/
namespace Verif.Spec

/-- `n` is the integer nearest to `v`; of two equally near ones the even one. -/
def IsNearestEven (v : ℚ) (n : ℕ) : Prop := |v - n| ≤ 1 / 2 ∧ (|v - n| = 1 / 2 → n % 2 = 0)

/-- A minus sign for a set sign bit. -/
def signText (f : FloatFmt) (x : Nat) : List Nat := if SignBit f x then ascii "-" else []

/-- `n` millionths with six decimals, e.g. `1.500000`. -/
def sixDecimals (n : Nat) : List Nat := decimal (n / 10 ^ 6) ++ ascii "." ++ padded 6 (n % 10 ^ 6)

/-- `n` millionths times `10^k`, e.g. `1.500000e14`. -/
def scientific (n k : Nat) : List Nat := sixDecimals n ++ ascii "e" ++ decimal k

/-- `t` is the text of the float `x`: below `limit` its value rounded to six decimals, from `limit` (a power of ten, at
least a million) on rounded to seven significant digits in scientific notation. A minus sign for a set sign bit, except for
NaN. `m` are the seven digits of a value between `10^k` and `10^(k+1)`; if they are rounded up to `10^7`, the notation is
`1.000000` with the next exponent. -/
def FloatText (f : FloatFmt) (limit : ℚ) (x : Nat) (t : List Nat) : Prop :=
  (IsNaN f x → t = ascii "NaN") ∧
  (¬ IsNaN f x → ¬ IsFinite f x → t = signText f x ++ ascii "inf") ∧
  (IsFinite f x → floatValue f x < limit →
    ∃ n, IsNearestEven (|floatValue f x| * 10 ^ 6) n ∧ t = signText f x ++ sixDecimals n) ∧
  (IsFinite f x → limit ≤ floatValue f x →
    ∃ k m n e : ℕ, (10 : ℚ) ^ k ≤ floatValue f x ∧ floatValue f x < 10 ^ (k + 1) ∧
      IsNearestEven (floatValue f x * 10 ^ 6 / 10 ^ k) m ∧
      10 ^ 6 ≤ n ∧ n < 10 ^ 7 ∧ n * 10 ^ e = m * 10 ^ k ∧ t = scientific n e)

/-- Writing a text to the start of a buffer of at least 81 bytes: the text, no terminator, nothing else changed; a text of
more than 81 bytes aborts the program. -/
def writeText (dest t : List Nat) : Res (List Nat) :=
  if t.length ≤ 81 then .ok (t ++ dest.drop t.length) else .panic

/-- An optional decimal exponent: nothing, or `e`/`E`, an optional sign and digits. -/
def ExponentPart (s : List Nat) (e : Int) : Prop :=
  (s = [] ∧ e = 0) ∨
  ∃ letter ∈ ["e", "E"], ∃ sign ∈ signs, ∃ digits n,
    s = ascii letter ++ ascii sign.1 ++ digits ∧ Numeral 10 digits n ∧ e = sign.2 * n

/-- `s` is a decimal number without sign of value `v`: digits, with an optional decimal point at any place,
and an optional exponent. -/
def DecimalLiteral (s : List Nat) (v : ℚ) : Prop :=
  ∃ whole point fraction expo n e,
    s = whole ++ point ++ fraction ++ expo ∧
    (point = ascii "." ∨ (point = [] ∧ fraction = [])) ∧
    Numeral 10 (whole ++ fraction) n ∧ ExponentPart expo e ∧
    v = n * (10 : ℚ) ^ (e - fraction.length)

/-- `s` is the word `w` (given in lower case) in any mixture of lower and upper case. -/
def IsWord (w : String) (s : List Nat) : Prop := List.Forall₂ (fun l c => c = l ∨ c + 32 = l) (ascii w) s

/-- A signed decimal number. -/
def SignedDecimal (s : List Nat) (v : ℚ) : Prop :=
  ∃ sign ∈ signs, ∃ body w, s = ascii sign.1 ++ body ∧ DecimalLiteral body w ∧ v = sign.2 * w

/-- The texts that denote a float: an optional sign and a decimal number, `inf`, `infinity` or `nan`. -/
def IsFloatText (s : List Nat) : Prop :=
  ∃ sign ∈ signs, ∃ body, s = ascii sign.1 ++ body ∧
    ((∃ v, DecimalLiteral body v) ∨ IsWord "inf" body ∨ IsWord "infinity" body ∨ IsWord "nan" body)

end Verif.Spec
