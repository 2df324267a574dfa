import Verif.Model.Float
/-
MAX, MIN, LIMIT: src/types.rs.  A `*const T` argument is `none` for null and `some l`
for a pointer to the first of `l.length` readable elements.
-/
namespace Verif

/-- `slice::from_raw_parts(value, size as usize)`: undefined if fewer elements are readable (src/types.rs:21, 38, 72, 85). -/
def fromRawParts {α : Type} (value : List α) (size : Nat) : Res (List α) :=
  if size ≤ value.length then .ok (value.take size) else .ub

/-- `Iterator::reduce` (src/types.rs:28, 45). -/
def reduce {α : Type} (f : α → α → α) : List α → Option α
  | [] => none
  | x :: xs => some (xs.foldl f x)

/-- `Iterator::max` on an `Ord` type: keeps the later of two equal elements (src/types.rs:73). -/
def iterMax (l : List Int) : Option Int := reduce (fun x y => if x > y then x else y) l
/-- `Iterator::min` on an `Ord` type: keeps the earlier of two equal elements (src/types.rs:86). -/
def iterMin (l : List Int) : Option Int := reduce (fun x y => if x > y then y else x) l

/-- `MAX__*` of `define_order_type!` (src/types.rs:70-77). -/
def maxInt (size : Nat) (value : Option (List Int)) : Res Int :=
  match value with
  | none => .panic
  | some v => do
    let arr ← fromRawParts v size
    Res.unwrap (iterMax arr)

/-- `MIN__*` of `define_order_type!` (src/types.rs:83-90). -/
def minInt (size : Nat) (value : Option (List Int)) : Res Int :=
  match value with
  | none => .panic
  | some v => do
    let arr ← fromRawParts v size
    Res.unwrap (iterMin arr)

/-- `limit` (src/types.rs:105-113) on an integer-represented type; `LIMIT__*` are instances. -/
def limitInt (min value max : Int) : Int :=
  if value < min then min
  else if value > max then max
  else value

/-- `MAX__REAL`, `MAX__LREAL` (src/types.rs:18-30). -/
def maxFloat (f : FloatFmt) (tie : Nat → Nat → Bool) (size : Nat) (value : Option (List Nat)) :
    Res Nat :=
  match value with
  | none => .panic
  | some v => do
    let arr ← fromRawParts v size
    Res.unwrap (reduce (f.fmax tie) arr)

/-- `MIN__REAL`, `MIN__LREAL` (src/types.rs:35-47). -/
def minFloat (f : FloatFmt) (tie : Nat → Nat → Bool) (size : Nat) (value : Option (List Nat)) :
    Res Nat :=
  match value with
  | none => .panic
  | some v => do
    let arr ← fromRawParts v size
    Res.unwrap (reduce (f.fmin tie) arr)

/-- `LIMIT__REAL`, `LIMIT__LREAL` (src/types.rs:52-58, 105-113). -/
def limitFloat (f : FloatFmt) (min value max : Nat) : Nat :=
  if f.lt value min then min
  else if f.gt value max then max
  else value

end Verif
