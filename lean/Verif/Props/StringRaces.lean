import Verif.Model.StringTasks
import Verif.Props.StringMoments
import Mathlib.Data.List.Forall2
import Mathlib.Tactic.FinCases
/-
C161: tasks that write the same string variable at the same time.
-/
namespace Verif
open Spec

/-- The stores of a call whose destination is the variable `old`. -/
def StringCall.unitStores (p : Profile) (ty : StrTy) (old : List Nat) (call : StringCall) : List UnitStore :=
  Verif.unitStores ⟨[], old⟩ (call.traced p ty (some old)).stores

/-- The memory `m` at some moment while tasks make the calls at the same time, each with the variable `old` as its destination. -/
def RaceMoment (p : Profile) (ty : StrTy) (calls : List StringCall) (old m : List Nat) : Prop :=
  ∃ rest, UnitStore.Race (calls.map (StringCall.unitStores p ty old)) old rest m

/-- The memory `m` when all of these calls are done. -/
def RaceEnd (p : Profile) (ty : StrTy) (calls : List StringCall) (old m : List Nat) : Prop :=
  ∃ rest, UnitStore.Race (calls.map (StringCall.unitStores p ty old)) old rest m ∧ ∀ stores ∈ rest, stores = []

/-- When tasks have written the same variable at the same time, it contains the text of one of them. -/
def OneWriterWins (p : Profile) (ty : StrTy) : Prop :=
  ∀ (calls : List StringCall) (old m t : List Nat), calls ≠ [] → (∀ call ∈ calls, ∃ final, call.run p ty (some old) = .ok final) → RaceEnd p ty calls old m → Holds m t →
    ∃ call ∈ calls, ∃ final, call.run p ty (some old) = .ok final ∧ Holds final t

/-! ### The stores of a call -/

private def Next (d e : Dest) : Prop := (∃ u, d.put u = .ok e) ∨ d.terminate = .ok e

private def Linked : Dest → List Dest → Prop
  | _, [] => True
  | d, e :: es => Next d e ∧ Linked e es

private def endOf : Dest → List Dest → Dest
  | d, [] => d
  | _, e :: es => endOf e es

private theorem linked_append : ∀ (d : Dest) (l r : List Dest), Linked d l → Linked (endOf d l) r → Linked d (l ++ r)
  | _, [], _, _, h => h
  | _, e :: l, r, h, h' => ⟨h.1, linked_append e l r h.2 h'⟩

private theorem endOf_append : ∀ (d : Dest) (l r : List Dest), endOf d (l ++ r) = endOf (endOf d l) r
  | _, [], _ => rfl
  | _, e :: l, r => endOf_append e l r

private def Trace (d : Dest) (x : Traced Dest) : Prop := Linked d x.stores ∧ ∀ d', x.result = .ok d' → endOf d x.stores = d'

private theorem trace_bind {d : Dest} {x : Traced Dest} {f : Dest → Traced Dest} (hx : Trace d x) (hf : ∀ d', Trace d' (f d')) : Trace d (x >>= f) := by
  show Trace d (Traced.bind x f)
  unfold Traced.bind
  cases hr : x.result with
  | ok a =>
    have := hx.2 a hr
    refine ⟨linked_append _ _ _ hx.1 (this ▸ (hf a).1), fun d' hd => ?_⟩
    dsimp only at hd ⊢
    rw [endOf_append, this]; exact (hf a).2 d' hd
  | panic => exact ⟨hx.1, fun _ h => by cases h⟩
  | ub => exact ⟨hx.1, fun _ h => by cases h⟩

private theorem trace_quiet {α : Type} {d : Dest} {r : Res α} {f : α → Traced Dest} (hf : ∀ a, r = .ok a → Trace d (f a)) : Trace d (Traced.quiet r >>= f) := by
  show Trace d (Traced.bind _ f)
  unfold Traced.bind Traced.quiet
  cases r with
  | ok a => exact hf a rfl
  | panic => exact ⟨trivial, fun _ h => by cases h⟩
  | ub => exact ⟨trivial, fun _ h => by cases h⟩

private theorem trace_panic (d : Dest) : Trace d (.quiet .panic) := ⟨trivial, fun _ h => by cases h⟩

private theorem trace_ub (d : Dest) : Trace d (.quiet .ub) := ⟨trivial, fun _ h => by cases h⟩

private theorem trace_pure (d : Dest) : Trace d (pure d) := ⟨trivial, fun d' h => by cases h; rfl⟩

private theorem trace_store (d : Dest) (r : Res Dest) (h : ∀ e, r = .ok e → Next d e) : Trace d (.store r) := by
  cases r with
  | ok e => exact ⟨⟨h e rfl, trivial⟩, fun d' h => by cases h; rfl⟩
  | panic => exact ⟨trivial, fun _ h => by cases h⟩
  | ub => exact ⟨trivial, fun _ h => by cases h⟩

private theorem trace_ite {d : Dest} {c : Prop} [Decidable c] {x y : Traced Dest} (hx : Trace d x) (hy : Trace d y) : Trace d (if c then x else y) := by
  split
  · exact hx
  · exact hy

private theorem trace_put : ∀ (us : List Nat) (d : Dest), Trace d (putStores us d)
  | [], d => trace_pure d
  | u :: us, d => by
    rw [putStores]
    exact trace_bind (trace_store _ _ fun _ h => .inl ⟨u, h⟩) fun d' => trace_put us d'

private theorem trace_items (k : Codec) : ∀ (items : List k.Item) (d : Dest), Trace d (k.itemsStores items d)
  | [], d => trace_pure d
  | c :: items, d => by
    rw [Codec.itemsStores]
    exact trace_quiet fun us _ => trace_bind (trace_put us d) fun d' => trace_items k items d'

private theorem trace_encode (k : Codec) (items : List k.Item) (d : Dest) : Trace d (k.encodeStores items d) :=
  trace_bind (trace_items k items d) fun _ => trace_store _ _ fun _ h => .inr h

private theorem trace_write (k : Codec) (items : List k.Item) (old : List Nat) : Trace ⟨[], old⟩ (k.writeStores items (some old)) :=
  trace_quiet fun d h => by cases h; exact trace_encode k items _

private theorem trace_wide : ∀ (items : List Char) (d : Dest), Trace d (wideStores items d)
  | [], d => trace_pure d
  | c :: items, d => by
    rw [wideStores]
    exact trace_bind (trace_put _ d) fun d' => trace_wide items d'

private theorem trace_loop (k : Codec) : ∀ (n : Nat) (argv : List Ptr) (d : Dest), Trace d (concatLoopStores k n argv d)
  | 0, _, d => trace_pure d
  | _ + 1, [], d => trace_ub d
  | n + 1, a :: argv, d => by
    rw [concatLoopStores]
    exact trace_quiet fun items _ => trace_bind (trace_encode k items d) fun d' => trace_loop k n argv d'

private theorem trace_call (p : Profile) (ty : StrTy) (call : StringCall) (old : List Nat) : Trace ⟨[], old⟩ (call.traced p ty (some old)) := by
  have w := fun items => trace_write (codecOf ty) items old
  have q := trace_panic ⟨[], old⟩
  cases call with
  | left src L => exact trace_ite q (trace_quiet fun _ _ => trace_ite q (w _))
  | right src L => exact trace_ite q (trace_quiet fun _ _ => trace_ite q (w _))
  | mid src L P => exact trace_ite q (trace_quiet fun _ _ => trace_ite q (trace_quiet fun _ _ => trace_ite q (w _)))
  | insert a b P => exact trace_quiet fun _ _ => trace_ite q (trace_quiet fun _ _ => w _)
  | delete src L P => exact trace_quiet fun _ _ => trace_ite q (trace_quiet fun _ _ => trace_ite q (w _))
  | replace a b L P => exact trace_quiet fun _ _ => trace_ite q (trace_quiet fun _ _ => trace_ite q (trace_quiet fun _ _ => w _))
  | concat argc argv =>
    cases argv with
    | none => exact q
    | some argv => exact trace_loop _ _ _ _
  | convert src =>
    cases ty with
    | STRING => exact trace_quiet fun _ _ => w _
    | WSTRING => exact trace_quiet fun _ _ => trace_quiet fun d h => by cases h; exact trace_wide _ _

/-- The memory before the first store, and after each of the stores. -/
def memories (mem : List Nat) : List UnitStore → List (List Nat)
  | [] => [mem]
  | s :: stores => mem :: memories (s.apply mem) stores

private theorem next_mem {d e : Dest} (h : Next d e) :
    e.mem = UnitStore.apply d.mem (if d.written.length < e.written.length then ⟨d.written.length, e.written.getLastD 0⟩ else ⟨e.written.length, 0⟩) := by
  rcases h with ⟨u, h⟩ | h
  · unfold Dest.put at h
    split at h
    · cases h
    · rename_i x rest hr
      cases h
      rw [if_pos (by simp)]
      simp [UnitStore.apply, Dest.mem, hr, List.getLastD_eq_getLast?]
  · unfold Dest.terminate at h
    split at h
    · cases h
    · rename_i x rest hr
      cases h
      rw [if_neg (by simp)]
      simp [UnitStore.apply, Dest.mem, hr]

private theorem memories_linked : ∀ (d : Dest) (l : List Dest), Linked d l → memories d.mem (unitStores d l) = d.mem :: l.map Dest.mem
  | _, [], _ => rfl
  | d, e :: l, h => by
    rw [unitStores, memories, ← next_mem h.1, memories_linked e l h.2, List.map_cons]

/-- **C161**, the stores are those of the call: made one after the other, they take the variable through the moments of the call. -/
theorem C161_stores (p : Profile) (ty : StrTy) (call : StringCall) (old : List Nat) : memories old (call.unitStores p ty old) = call.moments p ty old :=
  memories_linked ⟨[], old⟩ _ (trace_call p ty call old).1

/-! ### The stores do not depend on the destination -/

private def Like (d e : Dest) : Prop := d.written = e.written ∧ d.room.length = e.room.length

private def Alike (x y : Traced Dest) : Prop :=
  List.Forall₂ Like x.stores y.stores ∧
    ((∃ d e, x.result = .ok d ∧ y.result = .ok e ∧ Like d e) ∨ (x.result = .panic ∧ y.result = .panic) ∨ (x.result = .ub ∧ y.result = .ub))

private theorem alike_bind {x y : Traced Dest} {f g : Dest → Traced Dest} (h : Alike x y) (hf : ∀ d e, Like d e → Alike (f d) (g e)) :
    Alike (x >>= f) (y >>= g) := by
  show Alike (Traced.bind x f) (Traced.bind y g)
  unfold Traced.bind
  obtain ⟨h0, ⟨d, e, h1, h2, h⟩ | ⟨h1, h2⟩ | ⟨h1, h2⟩⟩ := h <;> rw [h1, h2] <;> dsimp only
  · exact ⟨List.rel_append h0 (hf d e h).1, (hf d e h).2⟩
  · exact ⟨h0, .inr (.inl ⟨rfl, rfl⟩)⟩
  · exact ⟨h0, .inr (.inr ⟨rfl, rfl⟩)⟩

private theorem alike_quiet {α : Type} {r : Res α} {f g : α → Traced Dest} (hf : ∀ a, Alike (f a) (g a)) : Alike (Traced.quiet r >>= f) (Traced.quiet r >>= g) := by
  show Alike (Traced.bind _ f) (Traced.bind _ g)
  unfold Traced.bind Traced.quiet
  cases r with
  | ok a => exact hf a
  | panic => exact ⟨.nil, .inr (.inl ⟨rfl, rfl⟩)⟩
  | ub => exact ⟨.nil, .inr (.inr ⟨rfl, rfl⟩)⟩

private theorem alike_panic : Alike (.quiet .panic) (.quiet .panic) := ⟨.nil, .inr (.inl ⟨rfl, rfl⟩)⟩

private theorem alike_ite {c : Prop} [Decidable c] {x y x' y' : Traced Dest} (h : Alike x x') (h' : Alike y y') : Alike (if c then x else y) (if c then x' else y') := by
  split
  · exact h
  · exact h'

private theorem alike_pure {d e : Dest} (h : Like d e) : Alike (pure d) (pure e) := ⟨.nil, .inl ⟨d, e, rfl, rfl, h⟩⟩

private theorem alike_put (u : Nat) {d e : Dest} (h : Like d e) : Alike (.store (d.put u)) (.store (e.put u)) := by
  obtain ⟨w, r⟩ := d
  obtain ⟨w', r'⟩ := e
  obtain ⟨h1, h2⟩ := h
  dsimp only at h1 h2
  subst h1
  cases r <;> cases r'
  · exact ⟨.nil, .inr (.inr ⟨rfl, rfl⟩)⟩
  · cases h2
  · cases h2
  · rename_i r _ r'
    have : Like (⟨w ++ [u], r⟩ : Dest) ⟨w ++ [u], r'⟩ := ⟨rfl, Nat.succ.inj h2⟩
    exact ⟨.cons this .nil, .inl ⟨_, _, rfl, rfl, this⟩⟩

private theorem alike_terminate {d e : Dest} (h : Like d e) : Alike (.store d.terminate) (.store e.terminate) := by
  obtain ⟨w, r⟩ := d
  obtain ⟨w', r'⟩ := e
  obtain ⟨h1, h2⟩ := h
  dsimp only at h1 h2
  subst h1
  cases r <;> cases r'
  · exact ⟨.nil, .inr (.inr ⟨rfl, rfl⟩)⟩
  · cases h2
  · cases h2
  · rename_i r _ r'
    have : Like (⟨w, 0 :: r⟩ : Dest) ⟨w, 0 :: r'⟩ := ⟨rfl, h2⟩
    exact ⟨.cons this .nil, .inl ⟨_, _, rfl, rfl, this⟩⟩

private theorem alike_puts : ∀ (us : List Nat) {d e : Dest}, Like d e → Alike (putStores us d) (putStores us e)
  | [], _, _, h => alike_pure h
  | u :: us, d, e, h => by
    rw [putStores, putStores]
    exact alike_bind (alike_put u h) fun _ _ h => alike_puts us h

private theorem alike_items (k : Codec) : ∀ (items : List k.Item) {d e : Dest}, Like d e → Alike (k.itemsStores items d) (k.itemsStores items e)
  | [], _, _, h => alike_pure h
  | c :: items, d, e, h => by
    rw [Codec.itemsStores, Codec.itemsStores]
    exact alike_quiet fun us => alike_bind (alike_puts us h) fun _ _ h => alike_items k items h

private theorem alike_encode (k : Codec) (items : List k.Item) {d e : Dest} (h : Like d e) : Alike (k.encodeStores items d) (k.encodeStores items e) :=
  alike_bind (alike_items k items h) fun _ _ h => alike_terminate h

private theorem alike_wide : ∀ (items : List Char) {d e : Dest}, Like d e → Alike (wideStores items d) (wideStores items e)
  | [], _, _, h => alike_pure h
  | c :: items, d, e, h => by
    rw [wideStores, wideStores]
    exact alike_bind (alike_puts _ h) fun _ _ h => alike_wide items h

private theorem alike_loop (k : Codec) : ∀ (n : Nat) (argv : List Ptr) {d e : Dest}, Like d e → Alike (concatLoopStores k n argv d) (concatLoopStores k n argv e)
  | 0, _, _, _, h => alike_pure h
  | _ + 1, [], _, _, _ => ⟨.nil, .inr (.inr ⟨rfl, rfl⟩)⟩
  | n + 1, a :: argv, d, e, h => by
    rw [concatLoopStores, concatLoopStores]
    exact alike_quiet fun items => alike_bind (alike_encode k items h) fun _ _ h => alike_loop k n argv h

private theorem alike_call {o o' : List Nat} (hl : o.length = o'.length) (p : Profile) (ty : StrTy) (call : StringCall) :
    Alike (call.traced p ty (some o)) (call.traced p ty (some o')) := by
  have start : Like ⟨[], o⟩ ⟨[], o'⟩ := ⟨rfl, hl⟩
  have w : ∀ (k : Codec) (items : List k.Item), Alike (k.writeStores items (some o)) (k.writeStores items (some o')) :=
    fun k items => alike_encode k items start
  have q := alike_panic
  cases call with
  | left src L => exact alike_ite q (alike_quiet fun _ => alike_ite q (w _ _))
  | right src L => exact alike_ite q (alike_quiet fun _ => alike_ite q (w _ _))
  | mid src L P => exact alike_ite q (alike_quiet fun _ => alike_ite q (alike_quiet fun _ => alike_ite q (w _ _)))
  | insert a b P => exact alike_quiet fun _ => alike_ite q (alike_quiet fun _ => w _ _)
  | delete src L P => exact alike_quiet fun _ => alike_ite q (alike_quiet fun _ => alike_ite q (w _ _))
  | replace a b L P => exact alike_quiet fun _ => alike_ite q (alike_quiet fun _ => alike_ite q (alike_quiet fun _ => w _ _))
  | concat argc argv =>
    cases argv with
    | none => exact q
    | some argv => exact alike_loop _ _ _ start
  | convert src =>
    cases ty with
    | STRING => exact alike_quiet fun _ => w _ _
    | WSTRING => exact alike_quiet fun items => alike_wide items start

private theorem unitStores_like : ∀ (d e : Dest) (l r : List Dest), Like d e → List.Forall₂ Like l r → unitStores d l = unitStores e r
  | _, _, [], _, _, .nil => rfl
  | d, e, a :: l, b :: r, h, .cons hab hlr => by
    rw [unitStores, unitStores, h.1, hab.1, unitStores_like a b l r hab hlr]

/-- **C161**, the stores of a call are the same whatever its destination contains: what other tasks write there does not change what the call stores. -/
theorem C161_independent (p : Profile) (ty : StrTy) (call : StringCall) (old old' : List Nat) (h : old.length = old'.length) :
    call.unitStores p ty old = call.unitStores p ty old' :=
  unitStores_like _ _ _ _ ⟨rfl, h⟩ (alike_call h p ty call).1

/-! ### Races -/

private theorem apply_length (m : List Nat) (s : UnitStore) : (s.apply m).length = m.length := List.length_set

private theorem applyAll_length (l : List UnitStore) : ∀ m : List Nat, (l.foldl UnitStore.apply m).length = m.length := by
  induction l with
  | nil => intro m; rfl
  | cons s l ih => intro m; rw [List.foldl_cons, ih, apply_length]

private theorem apply_other {m : List Nat} {s : UnitStore} {i : Nat} (h : s.index ≠ i) : (s.apply m)[i]? = m[i]? := List.getElem?_set_ne h

private theorem apply_same {m m' : List Nat} (s : UnitStore) (h : m.length = m'.length) : (s.apply m)[s.index]? = (s.apply m')[s.index]? := by
  unfold UnitStore.apply
  rw [List.getElem?_set_self', List.getElem?_set_self']
  by_cases hi : s.index < m.length
  · rw [List.getElem?_eq_getElem hi, List.getElem?_eq_getElem (h ▸ hi)]; rfl
  · rw [List.getElem?_eq_none (by omega), List.getElem?_eq_none (by omega)]

private theorem applyAll_other (l : List UnitStore) : ∀ {m : List Nat} {i : Nat}, (∀ s ∈ l, s.index ≠ i) → (l.foldl UnitStore.apply m)[i]? = m[i]? := by
  induction l with
  | nil => intros; rfl
  | cons s l ih =>
    intro m i h
    rw [List.foldl_cons, ih fun x hx => h x (List.mem_cons_of_mem _ hx), apply_other (h s List.mem_cons_self)]

/-- What is known in the middle: how far each task is, and whose unit it is that is at `i`. -/
private def Mid (start : List (List UnitStore)) (old : List Nat) (rest : List (List UnitStore)) (m : List Nat) : Prop :=
  m.length = old.length ∧ ∃ l : List (List UnitStore × List UnitStore), start = l.map (fun q => q.1 ++ q.2) ∧ rest = l.map Prod.snd ∧
    ∀ i : Nat, (∃ q ∈ l, (∃ s ∈ q.1, s.index = i) ∧ m[i]? = (q.1.foldl UnitStore.apply old)[i]?) ∨
      ((∀ q ∈ l, ∀ s ∈ q.1, s.index ≠ i) ∧ m[i]? = old[i]?)

private theorem mid_of_race {start : List (List UnitStore)} {old : List Nat} {rest : List (List UnitStore)} {m : List Nat}
    (h : UnitStore.Race start old rest m) : Mid start old rest m := by
  induction h with
  | begin =>
    refine ⟨rfl, start.map fun x => ([], x), by simp [Function.comp_def], by simp [Function.comp_def], fun i => .inr ⟨?_, rfl⟩⟩
    intro q hq s hs
    obtain ⟨x, -, rfl⟩ := List.mem_map.1 hq
    cases hs
  | @store before after s stores mem _ ih =>
    obtain ⟨hlen, l, h1, h2, h3⟩ := ih
    obtain ⟨l₁, l₂, rfl, hb, h2⟩ := List.map_eq_append_iff.1 h2.symm
    obtain ⟨q, l₂, rfl, hq, ha⟩ := List.map_eq_cons_iff.1 h2
    obtain ⟨e, r⟩ := q
    dsimp only at hq
    subst hq
    refine ⟨by rw [apply_length, hlen], l₁ ++ (e ++ [s], stores) :: l₂, by rw [h1]; simp, by simp [hb, ha], fun i => ?_⟩
    by_cases hi : s.index = i
    · refine .inl ⟨(e ++ [s], stores), by simp, ⟨s, by simp, hi⟩, ?_⟩
      rw [List.foldl_append]
      subst hi
      exact apply_same s (by rw [applyAll_length, hlen])
    · rw [apply_other hi]
      rcases h3 i with ⟨q, hq, ht, h⟩ | ⟨hn, h⟩
      · refine .inl ?_
        rcases List.mem_append.1 hq with hq | hq
        · exact ⟨q, List.mem_append_left _ hq, ht, h⟩
        · rcases List.mem_cons.1 hq with rfl | hq
          · refine ⟨(e ++ [s], stores), by simp, ?_, ?_⟩
            · obtain ⟨x, hx, hxi⟩ := ht
              exact ⟨x, List.mem_append_left _ hx, hxi⟩
            · rw [h, List.foldl_append]
              exact (apply_other hi).symm
          · exact ⟨q, by simp [hq], ht, h⟩
      · refine .inr ⟨?_, h⟩
        intro q hq x hx
        rcases List.mem_append.1 hq with hq | hq
        · exact hn q (List.mem_append_left _ hq) x hx
        · rcases List.mem_cons.1 hq with rfl | hq
          · rcases List.mem_append.1 hx with hx | hx
            · exact hn (e, s :: stores) (by simp) x hx
            · cases List.mem_singleton.1 hx; exact hi
          · exact hn q (by simp [hq]) x hx

private theorem mem_memories : ∀ (e r : List UnitStore) (m : List Nat), e.foldl UnitStore.apply m ∈ memories m (e ++ r)
  | [], [], _ => List.mem_singleton.2 rfl
  | [], _ :: _, _ => List.mem_cons_self
  | s :: e, r, m => List.mem_cons_of_mem _ (mem_memories e r (s.apply m))

/-- **C161**, at every moment: each of the calls is at one of its own moments, and each unit of the variable is the one that it would be at the moment of one of the calls, if this call were
the only one. -/
theorem C161_units (p : Profile) (ty : StrTy) (calls : List StringCall) (hne : calls ≠ []) (old m : List Nat) (h : RaceMoment p ty calls old m) :
    m.length = old.length ∧ ∃ now : List (List Nat), List.Forall₂ (fun call own => own ∈ call.moments p ty old) calls now ∧ ∀ i : Nat, ∃ own ∈ now, m[i]? = own[i]? := by
  obtain ⟨rest, h⟩ := h
  obtain ⟨hlen, l, h1, -, h3⟩ := mid_of_race h
  refine ⟨hlen, l.map fun q => q.1.foldl UnitStore.apply old, ?_, fun i => ?_⟩
  · clear h3 h hne
    induction l generalizing calls with
    | nil => cases calls with
      | nil => exact .nil
      | cons _ _ => cases h1
    | cons q l ih => cases calls with
      | nil => cases h1
      | cons call calls =>
        obtain ⟨e, h1⟩ := List.cons.inj h1
        refine .cons ?_ (ih calls h1)
        rw [← C161_stores, e]
        exact mem_memories _ _ _
  · rcases h3 i with ⟨q, hq, -, h⟩ | ⟨hn, h⟩
    · exact ⟨_, List.mem_map_of_mem hq, h⟩
    · cases l with
      | nil => exact absurd (List.map_eq_nil_iff.1 h1) hne
      | cons q l => exact ⟨_, List.mem_map_of_mem List.mem_cons_self, by rw [applyAll_other _ (hn q List.mem_cons_self)]; exact h⟩

/-- A call stores something in unit `i` of the variable. -/
def StringCall.Writes (p : Profile) (ty : StrTy) (old : List Nat) (call : StringCall) (i : Nat) : Prop := ∃ s ∈ call.unitStores p ty old, s.index = i

private theorem endOf_mem : ∀ (d : Dest) (l : List Dest), Linked d l → (unitStores d l).foldl UnitStore.apply d.mem = (endOf d l).mem
  | _, [], _ => rfl
  | d, e :: l, h => by rw [unitStores, List.foldl_cons, ← next_mem h.1, endOf_mem e l h.2]; rfl

private theorem result_ok {p : Profile} {ty : StrTy} {call : StringCall} {old final : List Nat} (h : call.run p ty (some old) = .ok final) :
    ∃ d, (call.traced p ty (some old)).result = .ok d ∧ d.mem = final := by
  rw [← C158_same_call] at h
  cases hr : (call.traced p ty (some old)).result with
  | ok d => rw [hr] at h; exact ⟨d, rfl, Res.ok.inj h⟩
  | panic => rw [hr] at h; cases h
  | ub => rw [hr] at h; cases h

private theorem stores_final {p : Profile} {ty : StrTy} {call : StringCall} {old final : List Nat} (h : call.run p ty (some old) = .ok final) :
    (call.unitStores p ty old).foldl UnitStore.apply old = final := by
  obtain ⟨d, hd, rfl⟩ := result_ok h
  obtain ⟨hl, he⟩ := trace_call p ty call old
  rw [← he d hd]
  exact endOf_mem ⟨[], old⟩ _ hl

/-- **C161**, when all calls are done: each unit is the final one of a call that writes it; a unit that no call writes is as before. -/
theorem C161_end (p : Profile) (ty : StrTy) (calls : List StringCall) (old m : List Nat) (h : RaceEnd p ty calls old m) (i : Nat) :
    (∃ call ∈ calls, call.Writes p ty old i ∧ ∀ final, call.run p ty (some old) = .ok final → m[i]? = final[i]?) ∨
      ((∀ call ∈ calls, ¬ call.Writes p ty old i) ∧ m[i]? = old[i]?) := by
  obtain ⟨rest, h, hr⟩ := h
  obtain ⟨-, l, h1, h2, h3⟩ := mid_of_race h
  have key : calls.map (StringCall.unitStores p ty old) = l.map Prod.fst := by
    rw [h1]
    refine List.map_congr_left fun q hq => ?_
    have : q.2 = [] := hr _ (h2 ▸ List.mem_map_of_mem hq)
    rw [this, List.append_nil]
  rcases h3 i with ⟨q, hq, ht, h⟩ | ⟨hn, h⟩
  · have : q.1 ∈ calls.map (StringCall.unitStores p ty old) := key ▸ List.mem_map_of_mem hq
    obtain ⟨call, hc, e⟩ := List.mem_map.1 this
    refine .inl ⟨call, hc, ?_, fun final hf => ?_⟩
    · show ∃ s ∈ call.unitStores p ty old, s.index = i
      rw [e]; exact ht
    · rw [h, ← e, stores_final hf]
  · refine .inr ⟨fun call hc hw => ?_, h⟩
    have : call.unitStores p ty old ∈ l.map Prod.fst := key ▸ List.mem_map_of_mem hc
    obtain ⟨q, hq, e⟩ := List.mem_map.1 this
    obtain ⟨s, hs, hi⟩ := hw
    exact hn q hq s (e ▸ hs) hi

/-! ### Any mixture is possible -/

private theorem linked_sorted : ∀ (d : Dest) (l : List Dest), Linked d l →
    (∀ s ∈ unitStores d l, d.written.length ≤ s.index) ∧ (unitStores d l).Pairwise fun s t => s.index ≤ t.index
  | _, [], _ => ⟨fun _ h => (by cases h), .nil⟩
  | d, e :: l, h => by
    obtain ⟨ih1, ih2⟩ := linked_sorted e l h.2
    have hn : d.written.length ≤ e.written.length := by
      rcases h.1 with ⟨u, h⟩ | h
      · unfold Dest.put at h; split at h
        · cases h
        · cases h; simp
      · unfold Dest.terminate at h; split at h
        · cases h
        · cases h; exact Nat.le_refl _
    rw [unitStores]
    refine ⟨fun s hs => ?_, List.pairwise_cons.2 ⟨fun s hs => ?_, ih2⟩⟩
    · rcases List.mem_cons.1 hs with rfl | hs
      · split
        · exact Nat.le_refl _
        · exact hn
      · exact Nat.le_trans hn (ih1 s hs)
    · refine Nat.le_trans ?_ (ih1 s hs)
      split
      · exact hn
      · exact Nat.le_refl _

private theorem race_task {start : List (List UnitStore)} {old : List Nat} (before after : List (List UnitStore)) (r : List UnitStore) :
    ∀ (e : List UnitStore) (m : List Nat), UnitStore.Race start old (before ++ (e ++ r) :: after) m →
      UnitStore.Race start old (before ++ r :: after) (e.foldl UnitStore.apply m)
  | [], _, h => h
  | _ :: e, _, h => race_task before after r e _ (.store h)

private def from_ (n : Nat) (l : List UnitStore) : List UnitStore := l.filter fun s => decide (n ≤ s.index)

private def at_ (n : Nat) (l : List UnitStore) : List UnitStore := l.filter fun s => decide (s.index = n)

private theorem from_split (n : Nat) : ∀ (l : List UnitStore), l.Pairwise (fun s t => s.index ≤ t.index) → from_ n l = at_ n l ++ from_ (n + 1) l
  | [], _ => rfl
  | s :: l, h => by
    obtain ⟨h1, h2⟩ := List.pairwise_cons.1 h
    have ih := from_split n l h2
    unfold from_ at_ at ih ⊢
    by_cases hs : s.index = n
    · rw [List.filter_cons_of_pos (by simp; omega), List.filter_cons_of_pos (by simpa using hs), List.filter_cons_of_neg (by simp; omega), ih]; rfl
    · by_cases hn : n ≤ s.index
      · have e : l.filter (fun s => decide (s.index = n)) = [] := List.filter_eq_nil_iff.2 fun x hx => by
          have := h1 x hx
          simp; omega
        rw [List.filter_cons_of_pos (by simpa using hn), List.filter_cons_of_neg (by simpa using hs), List.filter_cons_of_pos (by simp; omega), ih, e]; rfl
      · rw [List.filter_cons_of_neg (by simpa using hn), List.filter_cons_of_neg (by simpa using hs), List.filter_cons_of_neg (by simp; omega), ih]

private theorem at_index {n : Nat} {l : List UnitStore} : ∀ s ∈ at_ n l, s.index = n := fun s hs => by simpa using (List.mem_filter.1 hs).2

/-- Let the tasks `l` make their stores to unit `n`. -/
private theorem race_some {start : List (List UnitStore)} {old : List Nat} (n : Nat) (after : List (List UnitStore)) :
    ∀ (l before : List (List UnitStore)) (m : List Nat), (∀ x ∈ l, x.Pairwise fun s t => s.index ≤ t.index) →
      UnitStore.Race start old (before ++ (l.map (from_ n) ++ after)) m →
      ∃ m', UnitStore.Race start old (before ++ (l.map (from_ (n + 1)) ++ after)) m' ∧ m'.length = m.length ∧ ∀ i, i ≠ n → m'[i]? = m[i]?
  | [], _, m, _, h => ⟨m, h, rfl, fun _ _ => rfl⟩
  | x :: l, before, m, hs, h => by
    rw [List.map_cons, from_split n x (hs x List.mem_cons_self), List.cons_append] at h
    have h := race_task before _ _ _ _ h
    have e : ∀ y : List UnitStore, ∀ r : List (List UnitStore), before ++ y :: r = (before ++ [y]) ++ r := fun y r => by simp
    rw [e] at h
    obtain ⟨m', h', hl, ho⟩ := race_some n after l _ _ (fun y hy => hs y (List.mem_cons_of_mem _ hy)) h
    rw [← e] at h'
    refine ⟨m', h', by rw [hl, applyAll_length], fun i hi => ?_⟩
    rw [ho i hi, applyAll_other]
    exact fun s hs => by rw [at_index s hs]; exact fun h => hi h.symm

private theorem at_final {n : Nat} : ∀ (l : List UnitStore) (m m' : List Nat), m.length = m'.length → ((∃ s ∈ l, s.index = n) ∨ m[n]? = m'[n]?) →
    (l.foldl UnitStore.apply m)[n]? = ((at_ n l).foldl UnitStore.apply m')[n]?
  | [], _, _, _, h => by
    rcases h with ⟨_, h, _⟩ | h
    · cases h
    · exact h
  | s :: l, m, m', hl, h => by
    unfold at_
    by_cases hs : s.index = n
    · rw [List.filter_cons_of_pos (by simpa using hs), List.foldl_cons, List.foldl_cons]
      refine at_final l _ _ (by rw [apply_length, apply_length, hl]) (.inr ?_)
      subst hs
      exact apply_same s hl
    · rw [List.filter_cons_of_neg (by simpa using hs), List.foldl_cons]
      refine at_final l _ _ (by rw [apply_length, hl]) ?_
      rcases h with ⟨x, hx, hi⟩ | h
      · rcases List.mem_cons.1 hx with rfl | hx
        · exact absurd hi hs
        · exact .inl ⟨x, hx, hi⟩
      · exact .inr (by rw [apply_other hs]; exact h)

private theorem race_any {start : List (List UnitStore)} {old m : List Nat} (hs : ∀ x ∈ start, x.Pairwise fun s t => s.index ≤ t.index)
    (hm : ∀ i : Nat, (∃ x ∈ start, (∃ s ∈ x, s.index = i) ∧ m[i]? = (x.foldl UnitStore.apply old)[i]?) ∨ ((∀ x ∈ start, ∀ s ∈ x, s.index ≠ i) ∧ m[i]? = old[i]?)) :
    ∀ n : Nat, ∃ m', UnitStore.Race start old (start.map (from_ n)) m' ∧ m'.length = old.length ∧ (∀ i, i < n → m'[i]? = m[i]?) ∧ ∀ i, n ≤ i → m'[i]? = old[i]?
  | 0 => by
    refine ⟨old, ?_, rfl, fun _ h => by omega, fun _ _ => rfl⟩
    have : start.map (from_ 0) = start := by
      conv => rhs; rw [← List.map_id start]
      refine List.map_congr_left fun x _ => ?_
      unfold from_; simp
    rw [this]
    exact .begin
  | n + 1 => by
    obtain ⟨m', h, hl, hlt, hge⟩ := race_any hs hm n
    rcases hm n with ⟨x, hx, ht, hv⟩ | ⟨hn, hv⟩
    · obtain ⟨b, a, rfl⟩ := List.append_of_mem hx
      rw [List.map_append, List.map_cons] at h
      obtain ⟨m₁, h₁, l₁, o₁⟩ := race_some n _ b [] m' (fun y hy => hs y (List.mem_append_left _ hy)) h
      have h₁ : UnitStore.Race (b ++ x :: a) old ((b.map (from_ (n + 1)) ++ [from_ n x]) ++ (a.map (from_ n) ++ [])) m₁ := by simpa using h₁
      obtain ⟨m₂, h₂, l₂, o₂⟩ := race_some n [] a _ m₁ (fun y hy => hs y (List.mem_append_right _ (List.mem_cons_of_mem _ hy))) h₁
      have h₂ : UnitStore.Race (b ++ x :: a) old (b.map (from_ (n + 1)) ++ (at_ n x ++ from_ (n + 1) x) :: a.map (from_ (n + 1))) m₂ := by
        rw [← from_split n x (hs x (by simp))]; simpa using h₂
      have h₃ := race_task _ _ _ _ _ h₂
      refine ⟨_, by rw [List.map_append, List.map_cons]; exact h₃, by rw [applyAll_length, l₂, l₁, hl], fun i hi => ?_, fun i hi => ?_⟩
      · by_cases hin : i = n
        · subst hin
          rw [hv, ← at_final x old m₂ (by omega) (.inl ht)]
        · rw [applyAll_other _ fun s hs => by rw [at_index s hs]; exact fun h => hin h.symm, o₂ i hin, o₁ i hin, hlt i (by omega)]
      · rw [applyAll_other _ fun s hs => by rw [at_index s hs]; omega, o₂ i (by omega), o₁ i (by omega), hge i (by omega)]
    · have h : UnitStore.Race start old ([] ++ (start.map (from_ n) ++ [])) m' := by simpa using h
      obtain ⟨m₁, h₁, l₁, o₁⟩ := race_some n [] start [] m' hs h
      refine ⟨m', ?_, hl, fun i hi => ?_, fun i hi => hge i (by omega)⟩
      · have : start.map (from_ (n + 1)) = start.map (from_ n) := List.map_congr_left fun x hx => by
          rw [from_split n x (hs x hx)]
          have : at_ n x = [] := List.filter_eq_nil_iff.2 fun s hs' => by simpa using hn x hx s hs'
          rw [this]; rfl
        rw [this]
        simpa using h
      · by_cases hin : i = n
        · subst hin; rw [hv, hge i (Nat.le_refl _)]
        · exact hlt i (by omega)

/-- **C161**, and every such mixture is possible: for any choice of a call that writes the unit, for each unit on its own, there is an order of the stores after which
the variable contains the units that have been chosen. -/
theorem C161_any_mixture (p : Profile) (ty : StrTy) (calls : List StringCall) (old m : List Nat) (hlen : m.length = old.length)
    (h : ∀ i : Nat, (∃ call ∈ calls, call.Writes p ty old i ∧ ∃ final, call.run p ty (some old) = .ok final ∧ m[i]? = final[i]?) ∨
      ((∀ call ∈ calls, ¬ call.Writes p ty old i) ∧ m[i]? = old[i]?)) : RaceEnd p ty calls old m := by
  have hsort : ∀ x ∈ calls.map (StringCall.unitStores p ty old), x.Pairwise fun s t => s.index ≤ t.index := by
    intro x hx
    obtain ⟨call, -, rfl⟩ := List.mem_map.1 hx
    exact (linked_sorted ⟨[], old⟩ _ (trace_call p ty call old).1).2
  obtain ⟨N, hN⟩ : ∃ N : Nat, old.length ≤ N ∧ ∀ x ∈ calls.map (StringCall.unitStores p ty old), ∀ s ∈ x, s.index < N := by
    generalize calls.map (StringCall.unitStores p ty old) = l
    have one : ∀ x : List UnitStore, ∃ N, ∀ s ∈ x, s.index < N := by
      intro x
      induction x with
      | nil => exact ⟨0, fun _ h => by cases h⟩
      | cons s x ih =>
        obtain ⟨N, h⟩ := ih
        refine ⟨N + s.index + 1, fun t ht => ?_⟩
        rcases List.mem_cons.1 ht with rfl | ht
        · omega
        · have := h t ht; omega
    induction l with
    | nil => exact ⟨old.length, Nat.le_refl _, fun _ h => by cases h⟩
    | cons x l ih =>
      obtain ⟨N, h0, h⟩ := ih
      obtain ⟨N', h'⟩ := one x
      refine ⟨N + N', by omega, fun y hy s hs => ?_⟩
      rcases List.mem_cons.1 hy with rfl | hy
      · have := h' s hs; omega
      · have := h y hy s hs; omega
  obtain ⟨m', hr, hl, hlt, -⟩ := race_any (m := m) (old := old) hsort (fun i => by
    rcases h i with ⟨call, hc, hw, final, hf, hv⟩ | ⟨hn, hv⟩
    · exact .inl ⟨_, List.mem_map_of_mem hc, hw, by rw [hv, stores_final hf]⟩
    · refine .inr ⟨fun x hx s hs hi => ?_, hv⟩
      obtain ⟨call, hc, rfl⟩ := List.mem_map.1 hx
      exact hn call hc ⟨s, hs, hi⟩) N
  have : m' = m := by
    refine List.ext_getElem? fun i => ?_
    by_cases hi : i < N
    · exact hlt i hi
    · rw [List.getElem?_eq_none (by omega), List.getElem?_eq_none (by omega)]
  subst this
  refine ⟨_, hr, fun x hx => ?_⟩
  obtain ⟨y, hy, rfl⟩ := List.mem_map.1 hx
  exact List.filter_eq_nil_iff.2 fun s hs => by have := hN.2 y hy s hs; simp; omega

/-! ### The text when all calls are done -/

/-- The strings that a call reads. -/
def StringCall.sources : StringCall → List Ptr
  | .left src _ | .right src _ | .mid src _ _ | .delete src _ _ | .convert src => [src]
  | .insert a b _ | .replace a b _ _ => [a, b]
  | .concat _ argv => argv.getD []

/-- All units of the strings that a call reads have 16 bits. -/
def StringCall.Units16 (call : StringCall) : Prop := ∀ mem, some mem ∈ call.sources → ∀ u ∈ mem, u < 65536

private def NoZero (d : Dest) : Prop := ∀ u ∈ d.written, u ≠ 0

private def Keeps (d : Dest) (x : Traced Dest) : Prop := NoZero d → ∀ d', x.result = .ok d' → NoZero d'

private theorem keeps_bind {d : Dest} {x : Traced Dest} {f : Dest → Traced Dest} (hx : Keeps d x) (hf : ∀ d', Keeps d' (f d')) : Keeps d (x >>= f) := by
  intro h d' hd
  have e : (x >>= f) = Traced.bind x f := rfl
  rw [e] at hd
  unfold Traced.bind at hd
  cases hr : x.result with
  | ok a => rw [hr] at hd; exact hf a (hx h a hr) d' hd
  | panic => rw [hr] at hd; cases hd
  | ub => rw [hr] at hd; cases hd

private theorem keeps_quiet {α : Type} {d : Dest} {r : Res α} {f : α → Traced Dest} (hf : ∀ a, r = .ok a → Keeps d (f a)) : Keeps d (Traced.quiet r >>= f) := by
  intro h d' hd
  have e : (Traced.quiet r >>= f) = Traced.bind (Traced.quiet r) f := rfl
  rw [e] at hd
  unfold Traced.bind Traced.quiet at hd
  cases r with
  | ok a => exact hf a rfl h d' hd
  | panic => cases hd
  | ub => cases hd

private theorem keeps_panic (d : Dest) : Keeps d (.quiet .panic) := fun _ _ h => by cases h

private theorem keeps_ub (d : Dest) : Keeps d (.quiet .ub) := fun _ _ h => by cases h

private theorem keeps_pure (d : Dest) : Keeps d (pure d) := fun h _ h' => by cases h'; exact h

private theorem keeps_ite {d : Dest} {c : Prop} [Decidable c] {x y : Traced Dest} (hx : Keeps d x) (hy : Keeps d y) : Keeps d (if c then x else y) := by
  split
  · exact hx
  · exact hy

private theorem keeps_put (d : Dest) {u : Nat} (hu : u ≠ 0) : Keeps d (.store (d.put u)) := by
  obtain ⟨w, r⟩ := d
  intro h d' hd
  cases r with
  | nil => cases hd
  | cons x r =>
    cases hd
    intro v hv
    rcases List.mem_append.1 hv with hv | hv
    · exact h v hv
    · cases List.mem_singleton.1 hv; exact hu

private theorem keeps_terminate (d : Dest) : Keeps d (.store d.terminate) := by
  obtain ⟨w, r⟩ := d
  intro h d' hd
  cases r with
  | nil => cases hd
  | cons x r => cases hd; exact h

private theorem keeps_puts : ∀ (us : List Nat) (d : Dest), (∀ u ∈ us, u ≠ 0) → Keeps d (putStores us d)
  | [], d, _ => keeps_pure d
  | u :: us, d, h => by
    rw [putStores]
    exact keeps_bind (keeps_put d (h u List.mem_cons_self)) fun d' => keeps_puts us d' fun x hx => h x (List.mem_cons_of_mem _ hx)

private def ItemsOk (k : Codec) (items : List k.Item) : Prop := ∀ c ∈ items, ∀ us, k.units c = .ok us → ∀ u ∈ us, u ≠ 0

private theorem keeps_items (k : Codec) : ∀ (items : List k.Item) (d : Dest), ItemsOk k items → Keeps d (k.itemsStores items d)
  | [], d, _ => keeps_pure d
  | c :: items, d, h => by
    rw [Codec.itemsStores]
    exact keeps_quiet fun us hus => keeps_bind (keeps_puts us d (h c List.mem_cons_self us hus)) fun d' => keeps_items k items d' fun x hx => h x (List.mem_cons_of_mem _ hx)

private theorem keeps_encode (k : Codec) (items : List k.Item) (d : Dest) (h : ItemsOk k items) : Keeps d (k.encodeStores items d) :=
  keeps_bind (keeps_items k items d h) fun d' => keeps_terminate d'

private theorem keeps_write (k : Codec) (items : List k.Item) (old : List Nat) (h : ItemsOk k items) : Keeps ⟨[], old⟩ (k.writeStores items (some old)) :=
  keeps_quiet fun d hd => by cases hd; exact keeps_encode k items _ h

private theorem char_units {ty : StrTy} {c : Char} (h : c.toNat ≠ 0) : ∀ u ∈ ty.units [c], u ≠ 0 :=
  units_ne_zero ty fun x hx => by cases List.mem_singleton.1 hx; exact h

private theorem chars8 {src : Ptr} {items : List Char} (h : codec8.decode src = .ok items) : ∀ c ∈ items, c.toNat ≠ 0 := by
  obtain ⟨slice, hs, h1⟩ := Res.bind_eq_ok.1 h
  clear h
  cases src with
  | none => cases hs
  | some mem =>
    have hh := ptr_to_slice_eq_ok hs
    have h : (if from_utf8 slice then Res.ok (chars slice) else .panic) = .ok items := h1
    split at h
    · rename_i hu
      obtain ⟨t, rfl⟩ := (from_utf8_iff slice).1 hu
      rw [chars_utf8] at h
      cases h
      exact noNul_of_units .STRING hh.1
    · cases h

private theorem chars16 : ∀ (l : List Nat), (∀ u ∈ l, u ≠ 0 ∧ u < 65536) → ∀ c, some c ∈ decode_utf16 l → c.toNat ≠ 0
  | [], _, _, h => by rw [decode_utf16] at h; cases h
  | u :: l, hl, c, h => by
    have hu := hl u List.mem_cons_self
    have tl : ∀ x ∈ l, x ≠ 0 ∧ x < 65536 := fun x hx => hl x (List.mem_cons_of_mem _ hx)
    rw [decode_utf16.eq_def] at h
    dsimp only at h
    split at h
    · rename_i ht
      rcases List.mem_cons.1 h with h | h
      · cases h
        rw [toNat_ofNat]
        · exact hu.1
        · have := surrogate_test u hu.2
          simp at ht this
          omega
      · exact chars16 l tl c h
    · split at h
      · rcases List.mem_cons.1 h with h | h
        · cases h
        · exact chars16 l tl c h
      · split at h
        · simp at h
        · rename_i u2 l'
          split at h
          · rcases List.mem_cons.1 h with h | h
            · cases h
            · exact chars16 (u2 :: l') tl c h
          · rcases List.mem_cons.1 h with h | h
            · rw [Option.some.inj h]
              have h1 := Nat.mod_lt u (show 1024 > 0 by decide)
              have h2 := Nat.mod_lt u2 (show 1024 > 0 by decide)
              rw [and_3FF, and_3FF, shl_or_10 _ _ h2]
              generalize u % 1024 = a at *
              generalize u2 % 1024 = b at *
              rw [toNat_ofNat (.inr (by omega))]
              omega
            · exact chars16 l' (fun x hx => tl x (List.mem_cons_of_mem _ hx)) c h
termination_by l => l.length

private theorem chars16' {src : Ptr} {items : List (Option Char)} (h : codec16.decode src = .ok items) (hs : ∀ mem, src = some mem → ∀ u ∈ mem, u < 65536) :
    ∀ c, some c ∈ items → c.toNat ≠ 0 := by
  obtain ⟨slice, hsl, h1⟩ := Res.bind_eq_ok.1 h
  clear h
  cases src with
  | none => cases hsl
  | some mem =>
    have hh := ptr_to_slice_eq_ok hsl
    cases h1
    refine chars16 slice fun u hu => ⟨hh.1 u hu, hs mem rfl u ?_⟩
    obtain ⟨-, tail, rfl⟩ := hh
    exact List.mem_append_left _ hu

private theorem items_ok (ty : StrTy) {src : Ptr} {items : List (codecOf ty).Item} (h : (codecOf ty).decode src = .ok items)
    (hs : ∀ mem, src = some mem → ∀ u ∈ mem, u < 65536) : ItemsOk (codecOf ty) items := by
  intro c hc us hus
  cases ty with
  | STRING =>
    change Char at c
    have := char_units (ty := .STRING) (chars8 h c hc)
    have e : us = encode_utf8 c := (Res.ok.inj hus).symm
    rw [e, encode_utf8_eq]
    simpa [StrTy.units, utf8] using this
  | WSTRING =>
    change Option Char at c
    cases c with
    | none => cases hus
    | some c =>
      have := char_units (ty := .WSTRING) (chars16' h hs c hc)
      cases hus
      rw [encode_utf16_eq]
      simpa [StrTy.units, utf16] using this

private theorem itemsOk_sub {k : Codec} {l r : List k.Item} (h : ItemsOk k l) (hs : ∀ x ∈ r, x ∈ l) : ItemsOk k r := fun c hc => h c (hs c hc)

private theorem itemsOk_append {k : Codec} {l r : List k.Item} (h : ItemsOk k l) (h' : ItemsOk k r) : ItemsOk k (l ++ r) := fun c hc =>
  (List.mem_append.1 hc).elim (h c) (h' c)

private theorem keeps_wide : ∀ (items : List Char) (d : Dest), (∀ c ∈ items, c.toNat ≠ 0) → Keeps d (wideStores items d)
  | [], d, _ => keeps_pure d
  | c :: items, d, h => by
    rw [wideStores]
    refine keeps_bind (keeps_puts _ d ?_) fun d' => keeps_wide items d' fun x hx => h x (List.mem_cons_of_mem _ hx)
    have := char_units (ty := .WSTRING) (h c List.mem_cons_self)
    rw [encode_utf16_eq]
    simpa [StrTy.units, utf16] using this

private theorem keeps_loop (ty : StrTy) : ∀ (n : Nat) (argv : List Ptr) (d : Dest), (∀ mem, some mem ∈ argv → ∀ u ∈ mem, u < 65536) →
    Keeps d (concatLoopStores (codecOf ty) n argv d)
  | 0, _, d, _ => keeps_pure d
  | _ + 1, [], d, _ => keeps_ub d
  | n + 1, a :: argv, d, h => by
    rw [concatLoopStores]
    refine keeps_quiet fun items hi => keeps_bind (keeps_encode _ items d (items_ok ty hi fun mem e => h mem ?_)) fun d' => keeps_loop ty n argv d' fun mem hm => h mem (List.mem_cons_of_mem _ hm)
    rw [e]; exact List.mem_cons_self

private theorem keeps_call (p : Profile) (ty : StrTy) (call : StringCall) (old : List Nat) (h : call.Units16) : Keeps ⟨[], old⟩ (call.traced p ty (some old)) := by
  have w := fun items hi => keeps_write (codecOf ty) items old hi
  have q := keeps_panic ⟨[], old⟩
  have tk : ∀ {l : List (codecOf ty).Item} (n : Nat), ItemsOk _ l → ItemsOk _ (l.take n) := fun n h => itemsOk_sub h fun _ hx => List.mem_of_mem_take hx
  have dr : ∀ {l : List (codecOf ty).Item} (n : Nat), ItemsOk _ l → ItemsOk _ (l.drop n) := fun n h => itemsOk_sub h fun _ hx => List.mem_of_mem_drop hx
  cases call with
  | left src L =>
    have g : ∀ items, (codecOf ty).decode src = .ok items → ItemsOk _ items := fun _ hi => items_ok ty hi fun mem e => h mem (by rw [e]; simp [StringCall.sources])
    exact keeps_ite q (keeps_quiet fun _ hi => keeps_ite q (w _ (tk _ (g _ hi))))
  | right src L =>
    have g : ∀ items, (codecOf ty).decode src = .ok items → ItemsOk _ items := fun _ hi => items_ok ty hi fun mem e => h mem (by rw [e]; simp [StringCall.sources])
    exact keeps_ite q (keeps_quiet fun _ hi => keeps_ite q (w _ (dr _ (g _ hi))))
  | mid src L P =>
    have g : ∀ items, (codecOf ty).decode src = .ok items → ItemsOk _ items := fun _ hi => items_ok ty hi fun mem e => h mem (by rw [e]; simp [StringCall.sources])
    exact keeps_ite q (keeps_quiet fun _ hi => keeps_ite q (keeps_quiet fun _ _ => keeps_ite q (w _ (tk _ (dr _ (g _ hi))))))
  | insert a b P =>
    have g : ∀ items, (codecOf ty).decode a = .ok items → ItemsOk _ items := fun _ hi => items_ok ty hi fun mem e => h mem (by rw [e]; simp [StringCall.sources])
    have g' : ∀ items, (codecOf ty).decode b = .ok items → ItemsOk _ items := fun _ hi => items_ok ty hi fun mem e => h mem (by rw [e]; simp [StringCall.sources])
    exact keeps_quiet fun _ hi => keeps_ite q (keeps_quiet fun _ hj => w _ (itemsOk_append (itemsOk_append (tk _ (g _ hi)) (g' _ hj)) (dr _ (g _ hi))))
  | delete src L P =>
    have g : ∀ items, (codecOf ty).decode src = .ok items → ItemsOk _ items := fun _ hi => items_ok ty hi fun mem e => h mem (by rw [e]; simp [StringCall.sources])
    exact keeps_quiet fun _ hi => keeps_ite q (keeps_quiet fun _ _ => keeps_ite q (w _ (itemsOk_append (tk _ (g _ hi)) (dr _ (g _ hi)))))
  | replace a b L P =>
    have g : ∀ items, (codecOf ty).decode a = .ok items → ItemsOk _ items := fun _ hi => items_ok ty hi fun mem e => h mem (by rw [e]; simp [StringCall.sources])
    have g' : ∀ items, (codecOf ty).decode b = .ok items → ItemsOk _ items := fun _ hi => items_ok ty hi fun mem e => h mem (by rw [e]; simp [StringCall.sources])
    exact keeps_quiet fun _ hi => keeps_ite q (keeps_quiet fun _ _ => keeps_ite q (keeps_quiet fun _ hj => w _ (itemsOk_append (tk _ (g _ hi)) (itemsOk_append (g' _ hj) (dr _ (g _ hi))))))
  | concat argc argv =>
    cases argv with
    | none => exact q
    | some argv => exact keeps_loop ty _ _ _ h
  | convert src =>
    have hs : ∀ mem, src = some mem → ∀ u ∈ mem, u < 65536 := fun mem e => h mem (by rw [e]; simp [StringCall.sources])
    cases ty with
    | STRING =>
      refine keeps_quiet fun items hi => w _ fun c hc us hus => ?_
      obtain ⟨x, hx, rfl⟩ := List.mem_map.1 hc
      have h0 : (x.getD (Char.ofNat 0xFFFD)).toNat ≠ 0 := by
        cases x with
        | none => decide
        | some c => exact chars16' hi hs c hx
      have := char_units (ty := .STRING) h0
      cases hus
      rw [encode_utf8_eq]
      simpa [StrTy.units, utf8] using this
    | WSTRING => exact keeps_quiet fun items hi => keeps_quiet fun d h => by cases h; exact keeps_wide items _ (chars8 hi)

private theorem linked_bound : ∀ (d : Dest) (l : List Dest), Linked d l →
    d.written.length ≤ (endOf d l).written.length ∧ ∀ s ∈ unitStores d l, s.index ≤ (endOf d l).written.length
  | d, [], _ => ⟨Nat.le_refl _, fun _ h => (by cases h)⟩
  | d, e :: l, h => by
    obtain ⟨ih1, ih2⟩ := linked_bound e l h.2
    have hn : d.written.length ≤ e.written.length := by
      rcases h.1 with ⟨u, h⟩ | h
      · unfold Dest.put at h; split at h
        · cases h
        · cases h; simp
      · unfold Dest.terminate at h; split at h
        · cases h
        · cases h; exact Nat.le_refl _
    refine ⟨Nat.le_trans hn ih1, fun s hs => ?_⟩
    rw [unitStores] at hs
    show s.index ≤ (endOf e l).written.length
    rcases List.mem_cons.1 hs with rfl | hs
    · split
      · exact Nat.le_trans hn ih1
      · exact ih1
    · exact ih2 s hs

private theorem writes_le {p : Profile} {ty : StrTy} {call : StringCall} {old final t : List Nat} (h16 : call.Units16) (h : call.run p ty (some old) = .ok final)
    (ht : Holds final t) {i : Nat} (hw : call.Writes p ty old i) : i ≤ t.length := by
  obtain ⟨d, hd, rfl⟩ := result_ok h
  obtain ⟨hl, he⟩ := trace_call p ty call old
  obtain ⟨s, hs, rfl⟩ := hw
  have h1 := (linked_bound ⟨[], old⟩ _ hl).2 s hs
  rw [he d hd] at h1
  have h0 : NoZero d := keeps_call p ty call old h16 (fun _ h => by cases h) d hd
  refine Nat.le_trans h1 (Nat.le_of_not_lt fun hlt => ?_)
  obtain ⟨-, tail, e⟩ := ht
  have : d.mem[t.length]? = some 0 := by rw [e]; simp
  unfold Dest.mem at this
  rw [List.getElem?_append_left hlt] at this
  exact h0 0 (List.mem_of_getElem? this) rfl

private theorem not_writes {p : Profile} {ty : StrTy} {call : StringCall} {old final : List Nat} (h : call.run p ty (some old) = .ok final) {i : Nat}
    (hw : ¬ call.Writes p ty old i) : final[i]? = old[i]? := by
  rw [← stores_final h]
  exact applyAll_other _ fun s hs hi => hw ⟨s, hs, hi⟩

private theorem holds_at {m t : List Nat} (h : Holds m t) {i : Nat} (hi : i < t.length) : m[i]? = t[i]? ∧ m[i]? ≠ some 0 := by
  obtain ⟨h0, tail, rfl⟩ := h
  rw [List.getElem?_append_left hi]
  exact ⟨rfl, fun e => h0 0 (List.mem_of_getElem? e) rfl⟩

private theorem holds_zero {m t : List Nat} (h : Holds m t) : m[t.length]? = some 0 := by
  obtain ⟨h0, tail, rfl⟩ := h
  simp

/-- **C161**, the text when all calls are done: if each call on its own would leave a text, the variable contains a text then; it is no shorter than the shortest and no longer than the longest
of those, and each of its units is at the same place in one of them. -/
theorem C161_text (p : Profile) (ty : StrTy) (calls : List StringCall) (hne : calls ≠ []) (old m : List Nat) (text : StringCall → List Nat)
    (h16 : ∀ call ∈ calls, call.Units16) (h : ∀ call ∈ calls, ∃ final, call.run p ty (some old) = .ok final ∧ Holds final (text call)) (hm : RaceEnd p ty calls old m) :
    ∃ t, Holds m t ∧ (∃ call ∈ calls, (text call).length ≤ t.length) ∧ (∃ call ∈ calls, t.length ≤ (text call).length) ∧
      ∀ i : Nat, i < t.length → ∃ call ∈ calls, i < (text call).length ∧ t[i]? = (text call)[i]? := by
  have hend := C161_end p ty calls old m hm
  -- the longest text
  obtain ⟨long, hlong, hmax⟩ : ∃ long ∈ calls, ∀ call ∈ calls, (text call).length ≤ (text long).length := by
    clear h hm hend h16
    induction calls with
    | nil => exact absurd rfl hne
    | cons a l ih =>
      by_cases hl : l = []
      · subst hl; exact ⟨a, List.mem_cons_self, fun x hx => by cases List.mem_singleton.1 hx; exact Nat.le_refl _⟩
      · obtain ⟨b, hb, hmax⟩ := ih hl
        by_cases hab : (text a).length ≤ (text b).length
        · exact ⟨b, List.mem_cons_of_mem _ hb, fun x hx => (List.mem_cons.1 hx).elim (fun e => e ▸ hab) (hmax x)⟩
        · refine ⟨a, List.mem_cons_self, fun x hx => (List.mem_cons.1 hx).elim (fun e => e ▸ Nat.le_refl _) fun hx => ?_⟩
          have := hmax x hx; omega
  have hz : m[(text long).length]? = some 0 := by
    rcases hend (text long).length with ⟨call, hc, hw, hv⟩ | ⟨hn, hv⟩
    · obtain ⟨final, hf, ht⟩ := h call hc
      have h1 := writes_le (h16 call hc) hf ht hw
      have h2 := hmax call hc
      have e : (text long).length = (text call).length := by omega
      rw [hv final hf, e, holds_zero ht]
    · obtain ⟨final, hf, ht⟩ := h long hlong
      rw [hv, ← not_writes hf (hn long hlong), holds_zero ht]
  obtain ⟨t, ht⟩ : ∃ t, Holds m t := by
    rcases holds_or_no_zero m with h | h
    · exact h
    · exact absurd rfl (h 0 (List.mem_of_getElem? hz))
  have hle : t.length ≤ (text long).length := Nat.le_of_not_lt fun hlt => (holds_at ht hlt).2 hz
  refine ⟨t, ht, ?_, ⟨long, hlong, hle⟩, fun i hi => ?_⟩
  · have hz := holds_zero ht
    rcases hend t.length with ⟨call, hc, hw, hv⟩ | ⟨hn, hv⟩
    · obtain ⟨final, hf, hft⟩ := h call hc
      refine ⟨call, hc, Nat.le_of_not_lt fun hlt => (holds_at hft hlt).2 ?_⟩
      rw [← hv final hf, hz]
    · obtain ⟨final, hf, hft⟩ := h long hlong
      refine ⟨long, hlong, Nat.le_of_not_lt fun hlt => (holds_at hft hlt).2 ?_⟩
      rw [not_writes hf (hn long hlong), ← hv, hz]
  · obtain ⟨hmi, hnz⟩ := holds_at ht hi
    rcases hend i with ⟨call, hc, hw, hv⟩ | ⟨hn, hv⟩
    · obtain ⟨final, hf, hft⟩ := h call hc
      have h1 := writes_le (h16 call hc) hf hft hw
      have h2 : i < (text call).length := by
        refine Nat.lt_of_le_of_ne h1 fun e => hnz ?_
        rw [hv final hf, e, holds_zero hft]
      exact ⟨call, hc, h2, by rw [← hmi, hv final hf, (holds_at hft h2).1]⟩
    · obtain ⟨final, hf, hft⟩ := h long hlong
      have h2 : i < (text long).length := by omega
      exact ⟨long, hlong, h2, by rw [← hmi, hv, ← not_writes hf (hn long hlong), (holds_at hft h2).1]⟩

/-- **C161**, calls that would leave the same text leave it together. -/
theorem C161_same_text (p : Profile) (ty : StrTy) (calls : List StringCall) (hne : calls ≠ []) (old m t : List Nat) (h16 : ∀ call ∈ calls, call.Units16)
    (h : ∀ call ∈ calls, ∃ final, call.run p ty (some old) = .ok final ∧ Holds final t) (hm : RaceEnd p ty calls old m) : Holds m t := by
  obtain ⟨s, hs, ⟨_, _, h1⟩, ⟨_, _, h2⟩, h3⟩ := C161_text p ty calls hne old m (fun _ => t) h16 h hm
  have : s = t := by
    refine List.ext_getElem? fun i => ?_
    by_cases hi : i < s.length
    · obtain ⟨_, _, _, e⟩ := h3 i hi
      exact e
    · rw [List.getElem?_eq_none (by omega), List.getElem?_eq_none (by omega)]
  exact this ▸ hs

/-! ### While the calls go on -/

/-- **C161**, terminators while the calls go on: a variable whose last unit is zero keeps this zero, so that a reader does not run out of it. STRING_TO_WSTRING is left out. -/
theorem C161_terminated_partial (p : Profile) (ty : StrTy) (calls : List StringCall) (hne : calls ≠ []) (hc : ∀ call ∈ calls, (∀ src, call ≠ .convert src) ∨ ty = .STRING) (old m : List Nat)
    (h : ∀ call ∈ calls, ∃ final, call.run p ty (some old) = .ok final) (h0 : old.getLast? = some 0) (hm : RaceMoment p ty calls old m) :
    m.getLast? = some 0 ∧ ∃ s, Holds m s := by
  obtain ⟨hlen, now, hnow, hu⟩ := C161_units p ty calls hne old m hm
  have hl : m.getLast? = some 0 := by
    rw [List.getLast?_eq_getElem?]
    obtain ⟨own, ho, e⟩ := hu (m.length - 1)
    obtain ⟨call, hcall, hown⟩ : ∃ call ∈ calls, own ∈ call.moments p ty old := by
      clear h hm hu hc hne
      induction hnow with
      | nil => cases ho
      | cons hx _ ih =>
        rcases List.mem_cons.1 ho with rfl | ho
        · exact ⟨_, List.mem_cons_self, hx⟩
        · obtain ⟨c, hc, h⟩ := ih ho
          exact ⟨c, List.mem_cons_of_mem _ hc, h⟩
    obtain ⟨final, hf⟩ := h call hcall
    have := ((C158_terminated_partial p ty call (hc call hcall) old final hf h0).2 own hown).1
    rw [List.getLast?_eq_getElem?, C158_length p ty call old own hown, ← hlen] at this
    rw [e, this]
  refine ⟨hl, ?_⟩
  rcases holds_or_no_zero m with hs | hn
  · exact hs
  · exact absurd rfl (hn 0 (List.mem_of_getLast? hl))

/-- **C161**, characters of one unit: if all units that the variable contains before the calls, and after each of them on its own, are ASCII characters (STRING) or no surrogates (WSTRING),
a reader finds well-formed text at every moment at which there is a terminator. -/
theorem C161_single_units_partial (p : Profile) (ty : StrTy) (calls : List StringCall) (hne : calls ≠ []) (old m s : List Nat) (hold : ∀ u ∈ old, SingleUnit ty u)
    (h : ∀ call ∈ calls, ∃ final, call.run p ty (some old) = .ok final ∧ ∀ u ∈ final, SingleUnit ty u) (hm : RaceMoment p ty calls old m) (hs : Holds m s) :
    ∃ text, s = ty.units text := by
  obtain ⟨-, now, hnow, hu⟩ := C161_units p ty calls hne old m hm
  refine text_of_single_units ty s fun u hus => ?_
  obtain ⟨i, hi, rfl⟩ := List.getElem_of_mem hus
  obtain ⟨own, ho, e⟩ := hu i
  obtain ⟨call, hcall, hown⟩ : ∃ call ∈ calls, own ∈ call.moments p ty old := by
    clear h hm hu hne
    induction hnow with
    | nil => cases ho
    | cons hx _ ih =>
      rcases List.mem_cons.1 ho with rfl | ho
      · exact ⟨_, List.mem_cons_self, hx⟩
      · obtain ⟨c, hc, h⟩ := ih ho
        exact ⟨c, List.mem_cons_of_mem _ hc, h⟩
  obtain ⟨final, hf, hfu⟩ := h call hcall
  have hm' := (holds_at hs hi).1
  rw [e, List.getElem?_eq_getElem hi] at hm'
  have hmem := List.mem_of_getElem? hm'
  have hz : s[i] ≠ 0 := hs.1 _ (List.getElem_mem hi)
  obtain ⟨-, hj⟩ := C158_moments p ty call old final hf
  obtain ⟨j, hj | ⟨-, hj⟩⟩ := hj own hown
  · rw [hj] at hmem
    rcases List.mem_append.1 hmem with h | h
    · exact hfu _ (List.mem_of_mem_take h)
    · exact hold _ (List.mem_of_mem_drop h)
  · rw [hj] at hmem
    rcases List.mem_append.1 hmem with h | h
    · exact hfu _ (List.mem_of_mem_take h)
    · rcases List.mem_cons.1 h with h | h
      · exact absurd h hz
      · exact hold _ (List.mem_of_mem_drop h)

/-! ### Mixtures -/

private theorem race_two (a b : List UnitStore) (old : List Nat) (order : List Bool) (m : List Nat)
    (h : order.foldl (fun (x : List UnitStore × List UnitStore × List Nat) w => if w then (x.1.tail, x.2.1, (x.1.head?.map fun s => s.apply x.2.2).getD x.2.2)
        else (x.1, x.2.1.tail, (x.2.1.head?.map fun s => s.apply x.2.2).getD x.2.2)) (a, b, old) = ([], [], m)) :
    UnitStore.Race [a, b] old [[], []] m := by
  have key : ∀ (order : List Bool) (x : List UnitStore × List UnitStore × List Nat), UnitStore.Race [a, b] old [x.1, x.2.1] x.2.2 →
      ∀ y, order.foldl (fun (x : List UnitStore × List UnitStore × List Nat) w => if w then (x.1.tail, x.2.1, (x.1.head?.map fun s => s.apply x.2.2).getD x.2.2)
        else (x.1, x.2.1.tail, (x.2.1.head?.map fun s => s.apply x.2.2).getD x.2.2)) x = y → UnitStore.Race [a, b] old [y.1, y.2.1] y.2.2 := by
    intro order
    induction order with
    | nil => intro x hx y hy; cases hy; exact hx
    | cons w order ih =>
      intro x hx y hy
      refine ih _ ?_ y hy
      obtain ⟨l, r, m⟩ := x
      cases w with
      | true => cases l with
        | nil => exact hx
        | cons s l => exact .store (before := []) (after := [r]) hx
      | false => cases r with
        | nil => exact hx
        | cons s r => exact .store (before := [l]) (after := []) hx
  exact key order (a, b, old) .begin _ h

/-- **C161 is false of the code**: of 'ab' and 'cd', written at the same time, 'cb' can remain. -/
theorem C161_refuted (p : Profile) (ty : StrTy) : ¬ OneWriterWins p ty := by
  intro h
  have r1 : (StringCall.left (some [97, 98, 0]) 2).run p ty (some [0, 0, 0]) = .ok [97, 98, 0] := by cases ty <;> cases p <;> decide
  have r2 : (StringCall.left (some [99, 100, 0]) 2).run p ty (some [0, 0, 0]) = .ok [99, 100, 0] := by cases ty <;> cases p <;> decide
  have e : RaceEnd p ty [.left (some [97, 98, 0]) 2, .left (some [99, 100, 0]) 2] [0, 0, 0] [99, 98, 0] := by
    refine ⟨[[], []], race_two _ _ _ [true, false, false, false, true, true] _ ?_, by simp⟩
    cases ty <;> cases p <;> decide
  obtain ⟨call, hc, final, hr, ht⟩ := h _ _ _ [99, 98] (by simp) (by
    intro call hc
    rcases List.mem_cons.1 hc with rfl | hc
    · exact ⟨_, r1⟩
    · cases List.mem_singleton.1 hc; exact ⟨_, r2⟩) e ⟨by decide, [], rfl⟩
  rcases List.mem_cons.1 hc with rfl | hc
  · rw [r1] at hr
    cases hr
    cases holds_unique ht (⟨by decide, [], rfl⟩ : Holds [97, 98, 0] [97, 98])
  · cases List.mem_singleton.1 hc
    rw [r2] at hr
    cases hr
    cases holds_unique ht (⟨by decide, [], rfl⟩ : Holds [99, 100, 0] [99, 100])

/-- What remains need not be text: of 'ä' and 'ab' the first byte of 'ä' and 'b' can remain, on which LEN panics; of two WSTRING characters outside the basic plane, one half of each, which is
another character. -/
theorem C161_malformed (p : Profile) :
    (∃ m, RaceEnd p .STRING [.left (some [0xC3, 0xA4, 0]) 1, .left (some [97, 98, 0]) 2] [0, 0, 0] m ∧ len codec8 (some m) = .panic) ∧
    RaceEnd p .WSTRING [.left (some [0xD83D, 0xDE00, 0]) 1, .left (some [0xD83C, 0xDF0D, 0]) 1] [0, 0, 0] [0xD83D, 0xDF0D, 0] := by
  refine ⟨⟨[0xC3, 98, 0], ⟨[[], []], race_two _ _ _ [false, true, true, true, false, false] _ ?_, by simp⟩, by decide⟩,
    ⟨[[], []], race_two _ _ _ [false, true, true, true, false, false] _ ?_, by simp⟩⟩
  all_goals cases p <;> decide

/-- A shorter text in front of a longer one: the terminator of 'x' can cut 'abc' off, or disappear in it. -/
example (p : Profile) (ty : StrTy) : ∀ m ∈ [[120, 98, 99, 0], [97, 0, 99, 0], [97, 98, 99, 0], [120, 0, 99, 0]],
    RaceEnd p ty [.left (some [97, 98, 99, 0]) 3, .left (some [120, 0]) 1] [0, 0, 0, 0] m := by
  intro m hm
  fin_cases hm
  · refine ⟨[[], []], race_two _ _ _ [true, false, false, true, true, true] _ ?_, by simp⟩
    cases ty <;> cases p <;> decide
  · refine ⟨[[], []], race_two _ _ _ [false, true, true, false, true, true] _ ?_, by simp⟩
    cases ty <;> cases p <;> decide
  · refine ⟨[[], []], race_two _ _ _ [false, false, true, true, true, true] _ ?_, by simp⟩
    cases ty <;> cases p <;> decide
  · refine ⟨[[], []], race_two _ _ _ [true, true, true, true, false, false] _ ?_, by simp⟩
    cases ty <;> cases p <;> decide

/-- The hypotheses of `C161_text`, `C161_terminated_partial` and `C161_single_units_partial` are met. -/
example (p : Profile) (ty : StrTy) : ∀ call ∈ [StringCall.left (some [97, 98, 99, 0]) 3, .left (some [120, 0]) 1], call.Units16 ∧
    ∃ final, call.run p ty (some [0, 0, 0, 0]) = .ok final ∧ (∃ t, Holds final t) ∧ ∀ u ∈ final, SingleUnit ty u := by
  intro call hc
  fin_cases hc
  · refine ⟨fun mem hm => by cases List.mem_singleton.1 hm; decide, [97, 98, 99, 0], by cases ty <;> cases p <;> decide, ⟨[97, 98, 99], by decide, [], rfl⟩, ?_⟩
    cases ty <;> simp [SingleUnit]
  · refine ⟨fun mem hm => by cases List.mem_singleton.1 hm; decide, [120, 0, 0, 0], by cases ty <;> cases p <;> decide, ⟨[120], by decide, [0, 0], rfl⟩, ?_⟩
    cases ty <;> simp [SingleUnit]

/-- CONCAT stores a terminator behind each argument, and the first unit of the next one over it. -/
example : (StringCall.concat 2 (some [some [97, 0], some [98, 0]])).unitStores .release .STRING [49, 50, 51, 52] = [⟨0, 97⟩, ⟨1, 0⟩, ⟨1, 98⟩, ⟨2, 0⟩] := by decide

/-- The mixture 'cb' by the choice of the second call for unit 0, and of the first call for the other two. -/
example : ∃ m, RaceEnd .release .STRING [.left (some [97, 98, 0]) 2, .left (some [99, 100, 0]) 2] [0, 0, 0] m ∧ m = [99, 98, 0] := by
  refine ⟨_, C161_any_mixture _ _ _ _ [99, 98, 0] rfl fun i => ?_, rfl⟩
  match i with
  | 0 => exact .inl ⟨.left (some [99, 100, 0]) 2, by simp, ⟨⟨0, 99⟩, by decide, rfl⟩, [99, 100, 0], by decide, rfl⟩
  | 1 => exact .inl ⟨.left (some [97, 98, 0]) 2, by simp, ⟨⟨1, 98⟩, by decide, rfl⟩, [97, 98, 0], by decide, rfl⟩
  | 2 => exact .inl ⟨.left (some [97, 98, 0]) 2, by simp, ⟨⟨2, 0⟩, by decide, rfl⟩, [97, 98, 0], by decide, rfl⟩
  | i + 3 =>
    refine .inr ⟨fun call hc ⟨s, hs, hi⟩ => ?_, rfl⟩
    have h1 : (StringCall.left (some [97, 98, 0]) 2).unitStores .release .STRING [0, 0, 0] = [⟨0, 97⟩, ⟨1, 98⟩, ⟨2, 0⟩] := by decide
    have h2 : (StringCall.left (some [99, 100, 0]) 2).unitStores .release .STRING [0, 0, 0] = [⟨0, 99⟩, ⟨1, 100⟩, ⟨2, 0⟩] := by decide
    fin_cases hc
    · rw [h1] at hs; fin_cases hs <;> simp at hi
    · rw [h2] at hs; fin_cases hs <;> simp at hi

end Verif
