/-
The Gregorian calendar, by counting days: leap-year rule, month lengths, the next and
the previous day, and the date of day `n` relative to 1970-01-01.
-/
namespace Verif.Spec

/-- A calendar date. -/
structure Date where
  year : Int
  month : Nat
  day : Nat
  deriving DecidableEq, Repr

/-- Divisible by 4, except centuries not divisible by 400. -/
def LeapYear (y : Int) : Prop := y % 4 = 0 ∧ (y % 100 ≠ 0 ∨ y % 400 = 0)
instance (y : Int) : Decidable (LeapYear y) := by unfold LeapYear; infer_instance

/-- Length of a month. -/
def daysIn (y : Int) (m : Nat) : Nat :=
  match m with
  | 1 => 31 | 2 => if LeapYear y then 29 else 28 | 3 => 31 | 4 => 30 | 5 => 31 | 6 => 30
  | 7 => 31 | 8 => 31 | 9 => 30 | 10 => 31 | 11 => 30 | 12 => 31
  | _ => 0

/-- The date exists in the calendar. -/
def Date.Valid (d : Date) : Prop := 1 ≤ d.day ∧ d.day ≤ daysIn d.year d.month
instance (d : Date) : Decidable d.Valid := by unfold Date.Valid; infer_instance

/-- The following day. -/
def Date.next (d : Date) : Date :=
  if d.day < daysIn d.year d.month then ⟨d.year, d.month, d.day + 1⟩
  else if d.month < 12 then ⟨d.year, d.month + 1, 1⟩
  else ⟨d.year + 1, 1, 1⟩

/-- The preceding day. -/
def Date.prev (d : Date) : Date :=
  if 1 < d.day then ⟨d.year, d.month, d.day - 1⟩
  else if 1 < d.month then ⟨d.year, d.month - 1, daysIn d.year (d.month - 1)⟩
  else ⟨d.year - 1, 12, 31⟩

/-- 1970-01-01. -/
def epoch : Date := ⟨1970, 1, 1⟩

/-- `n` days after the epoch. -/
def daysAfter : Nat → Date
  | 0 => epoch
  | n + 1 => (daysAfter n).next
/-- `n` days before the epoch. -/
def daysBeforeEpoch : Nat → Date
  | 0 => epoch
  | n + 1 => (daysBeforeEpoch n).prev

/-- The date of day `n` (day 0 is 1970-01-01). -/
def civilDate : Int → Date
  | .ofNat n => daysAfter n
  | .negSucc n => daysBeforeEpoch (n + 1)

/-- The day a timestamp (nanoseconds since the epoch) falls on. -/
def dayOf (t : Int) : Int := t / 86400000000000
/-- Nanoseconds since midnight of a timestamp. -/
def timeOfDay (t : Int) : Int := t % 86400000000000

end Verif.Spec
