import Verif.Model.SharedInstance
/-
Tasks that call the same instance on cores that change the order of their loads and stores.

The model allows more than processors do, e.g. that two stores to the same field change places; it does not allow that a load sees a store that
depends on it.  As in Model/SharedInstance.lean, a field is loaded or stored at once, and a compiler changes nothing.
-/
namespace Verif
namespace Steps

/-- Tasks on cores that change the order of their loads and stores: `Reaches start s cores memory` says that tasks that begin as `start`, over the memory `s`, can come to
`cores`; `memory` lists the contents of the memory from now back to the beginning.  A load sees the core's own delayed stores and, apart from them, the memory as it is or was at any time before; any delayed
store may reach the memory next (no code in /repo prevents it, e.g. src/flanks.rs:19-22). -/
inductive Reaches {S : Type} (start : List (Core S)) (s : S) : List (Core S) → List S → Prop
  | start : Reaches start s start [s]
  | load {cores memory i next pending m} : Reaches start s cores memory → cores[i]? = some ⟨.load next, pending⟩ → m ∈ memory →
      Reaches start s (cores.set i ⟨next (Core.view ⟨.done, pending⟩ m), pending⟩) memory
  | store {cores memory i f next pending} : Reaches start s cores memory → cores[i]? = some ⟨.store f next, pending⟩ →
      Reaches start s (cores.set i ⟨next, pending ++ [f]⟩) memory
  | write {cores m older i rest front f back} : Reaches start s cores (m :: older) → cores[i]? = some ⟨rest, front ++ f :: back⟩ →
      Reaches start s (cores.set i ⟨rest, front ++ back⟩) (f m :: m :: older)

end Steps
end Verif
