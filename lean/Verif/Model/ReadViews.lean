import Verif.Model.StringViews
/-
The functions that only read strings (comparisons, LEN, FIND), if another task changes their arguments meanwhile.

A comparison looks for the terminator of each argument once, and goes through the units in front of it once for every neighbour.  FIND looks for the terminators of both arguments once; each of its
windows is compared with the second argument, and at a hit the units in front of the window are read again.  Simplification: a unit is read once in a comparison of two slices (a `memcmp` may read
it again).
-/
namespace Verif

/-- What a comparison finds in one of its arguments: the units that the search for the terminator passes (src/string_functions.rs:780, 783), those that are compared with the argument in front
(`current`, src/string_functions.rs:784) and those that are compared with the next argument (`previous`, src/string_functions.rs:784, 787). -/
structure CmpView where
  scanned : List Nat
  current : List Nat
  previous : List Nat
  deriving DecidableEq, Repr

/-- The loop of `compare` (src/string_functions.rs:781-788) behind the argument `a`. -/
def compareLoopViews (predicate : Ordering → Bool) (a : CmpView) : List CmpView → Bool
  | [] => true
  | b :: vs => if !(predicate (cmpSlices a.previous b.current)) then false else compareLoopViews predicate b vs

/-- `compare` with as many arguments as there are views (src/string_functions.rs:771-791). -/
def compareViews (predicate : Ordering → Bool) : List CmpView → Res Bool
  | a :: b :: vs => .ok (compareLoopViews predicate a (b :: vs))
  | _ => .panic

/-- `NE__STRING`, `NE__WSTRING` (src/string_functions.rs:921-935). -/
def neViews (a b : CmpView) : Res Bool := .ok (cmpSlices a.previous b.current).isNe

/-- `LEN__STRING`, `LEN__WSTRING` (src/string_functions.rs:141-143, 157-159). -/
def lenViews (k : Codec) (v : View) : Res Int := do
  let items ← k.decodeView v
  pure (asI32 items.length)

/-- What a call of FIND finds: the units that the searches for the terminators pass (src/string_functions.rs:171-172, 203-204), for each window its units and those of the second argument
(src/string_functions.rs:178-181, 210-213), and the units in front of a hit, when they are checked and when they are counted (src/string_functions.rs:184-187, 216-217). -/
structure FindView where
  haystack : List Nat
  needle : List Nat
  windows : List (List Nat × List Nat)
  checked : List Nat
  read : List Nat
  deriving DecidableEq, Repr

/-- `FIND__STRING`, `FIND__WSTRING` (src/string_functions.rs:170-192, 202-223). -/
def findViews (p : Profile) (k : Codec) (v : FindView) : Res Int := do
  if v.needle.length > v.haystack.length || v.haystack.isEmpty || v.needle.isEmpty then pure 0
  else
    match v.windows.findIdx? (fun w => w.1 == w.2) with
    | some idx => do
      let items ← k.decodeView ⟨v.haystack.take idx, v.checked.take idx, v.read.take idx⟩
      IntTy.i32.arith p (asI32 items.length + 1)
    | none => pure 0

end Verif
