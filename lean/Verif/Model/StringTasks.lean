import Verif.Model.StringStores
/-
Several tasks that write the same string variable at the same time: the stores of their calls, mixed in any way.

A call does not load from its destination, so that its stores are the same whatever the other tasks store there.  Its arguments are not written meanwhile.
The stores of a task take place in the order of the program and one unit at a time, as in Model/StringStores.lean.
-/
namespace Verif

/-- A store to one unit of a destination: `**dest = *byte`, `**dest = 0`, `*dest = *word` (src/string_functions.rs:95, 100, 110, 115,
src/string_conversion.rs:38). -/
structure UnitStore where
  index : Nat
  unit : Nat
  deriving DecidableEq, Repr

/-- The memory of the variable after a store to it (src/string_functions.rs:95, 100, 110, 115, src/string_conversion.rs:38). -/
def UnitStore.apply (mem : List Nat) (s : UnitStore) : List Nat := mem.set s.index s.unit

/-- The stores that lead from a destination to the destinations in the list, one after the other: a store of a unit moves the cursor (src/string_functions.rs:95-96, 110-111,
src/string_conversion.rs:38-39), a terminator does not (src/string_functions.rs:100, 115). -/
def unitStores : Dest → List Dest → List UnitStore
  | _, [] => []
  | d, e :: es =>
    (if d.written.length < e.written.length then ⟨d.written.length, e.written.getLastD 0⟩ else ⟨e.written.length, 0⟩) :: unitStores e es

/-- Tasks that write one variable: `start` lists the stores of the calls and `old` is the memory before them; `rest` lists the stores that are
still to come and `mem` is the memory then. Any task may be the next one (src/string_functions.rs:90-100, 105-116; the library takes no lock). -/
inductive UnitStore.Race (start : List (List UnitStore)) (old : List Nat) : (rest : List (List UnitStore)) → (mem : List Nat) → Prop where
  | begin : Race start old start old
  | store {before after : List (List UnitStore)} {s : UnitStore} {stores : List UnitStore} {mem : List Nat} :
      Race start old (before ++ (s :: stores) :: after) mem → Race start old (before ++ stores :: after) (s.apply mem)

end Verif
