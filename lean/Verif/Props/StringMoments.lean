import Verif.Model.StringStores
import Verif.Model.FloatText
import Verif.Proofs.Strings
import Mathlib.Data.Nat.Find
/-
C158: a string that is read, or that a power failure leaves behind, while a function writes it.
-/
namespace Verif
open Spec

/-- A call of a function that writes a string: LEFT, RIGHT, MID, INSERT, DELETE, REPLACE, CONCAT with the argument list `argv`, or the conversion from the
other string type. -/
inductive StringCall where
  | left (src : Ptr) (L : Int)
  | right (src : Ptr) (L : Int)
  | mid (src : Ptr) (L P : Int)
  | insert (in1 in2 : Ptr) (P : Int)
  | delete (src : Ptr) (L P : Int)
  | replace (in1 in2 : Ptr) (L P : Int)
  | concat (argc : Int) (argv : Option (List Ptr))
  | convert (src : Ptr)

namespace StringCall

/-- The destination after the call; `ty` is its type. -/
def run (p : Profile) (ty : StrTy) (dest : Ptr) : StringCall → Res (List Nat)
  | .left src L => Verif.left (codecOf ty) src L dest
  | .right src L => Verif.right (codecOf ty) src L dest
  | .mid src L P => Verif.mid p (codecOf ty) src L P dest
  | .insert a b P => Verif.insert (codecOf ty) a b P dest
  | .delete src L P => Verif.delete p (codecOf ty) src L P dest
  | .replace a b L P => Verif.replace p (codecOf ty) a b L P dest
  | .concat argc argv => Verif.concat (codecOf ty) dest argc argv
  | .convert src => match ty with
    | .STRING => WSTRING_TO_STRING_EXT src dest
    | .WSTRING => STRING_TO_WSTRING_EXT src dest

/-- The same call, store by store. -/
def traced (p : Profile) (ty : StrTy) (dest : Ptr) : StringCall → Traced Dest
  | .left src L => leftStores (codecOf ty) src L dest
  | .right src L => rightStores (codecOf ty) src L dest
  | .mid src L P => midStores p (codecOf ty) src L P dest
  | .insert a b P => insertStores (codecOf ty) a b P dest
  | .delete src L P => deleteStores p (codecOf ty) src L P dest
  | .replace a b L P => replaceStores p (codecOf ty) a b L P dest
  | .concat argc argv => concatStores (codecOf ty) dest argc argv
  | .convert src => match ty with
    | .STRING => WSTRING_TO_STRING_EXT_stores src dest
    | .WSTRING => STRING_TO_WSTRING_EXT_stores src dest

/-- What the variable `old` contains before the call, between its stores and after the last one. -/
def moments (p : Profile) (ty : StrTy) (call : StringCall) (old : List Nat) : List (List Nat) :=
  old :: (call.traced p ty (some old)).stores.map Dest.mem

end StringCall

/-- A task that reads a variable while a call writes it finds the text from before or the text from after the call. -/
def ReadsOldOrNew (p : Profile) (ty : StrTy) : Prop :=
  ∀ (call : StringCall) (old final s t : List Nat), call.run p ty (some old) = .ok final → Holds old s → Holds final t →
    ∀ m ∈ call.moments p ty old, Holds m s ∨ Holds m t

/-! ### The calls store by store are the calls -/

private theorem bind_result {α β : Type} (x : Traced α) (f : α → Traced β) : (x >>= f).result = x.result >>= fun a => (f a).result := by
  show (Traced.bind x f).result = _
  unfold Traced.bind
  cases x.result <;> rfl

private theorem pure_result {α : Type} (a : α) : (pure a : Traced α).result = .ok a := rfl

private theorem quiet_result {α : Type} (r : Res α) : (Traced.quiet r).result = r := rfl

private theorem store_result (r : Res Dest) : (Traced.store r).result = r := by cases r <;> rfl

private theorem put_result : ∀ (us : List Nat) (d : Dest), (putStores us d).result = us.foldlM Dest.put d
  | [], _ => rfl
  | u :: us, d => by
    rw [putStores, bind_result, store_result, List.foldlM_cons]
    exact congrArg _ (funext fun d => put_result us d)

private theorem items_result (k : Codec) : ∀ (items : List k.Item) (d : Dest), (k.itemsStores items d).result =
    items.foldlM (fun d c => do
      let slice ← k.units c
      slice.foldlM Dest.put d) d
  | [], _ => rfl
  | c :: items, d => by
    rw [Codec.itemsStores, bind_result, quiet_result, List.foldlM_cons, bind_assoc]
    refine congrArg _ (funext fun us => ?_)
    rw [bind_result, put_result]
    exact congrArg _ (funext fun d => items_result k items d)

private theorem encode_result (k : Codec) (items : List k.Item) (d : Dest) : (k.encodeStores items d).result = k.encode items d := by
  rw [Codec.encodeStores, bind_result, items_result, Codec.encode]
  exact congrArg _ (funext fun d => store_result _)

private theorem write_result (k : Codec) (items : List k.Item) (dest : Ptr) :
    (do let d ← (k.writeStores items dest).result; pure d.mem) = k.write items dest := by
  rw [Codec.writeStores, bind_result, quiet_result, Codec.write, bind_assoc]
  refine congrArg _ (funext fun d => ?_)
  rw [encode_result]

private theorem wide_result : ∀ (items : List Char) (d : Dest), (wideStores items d).result = items.foldlM (fun d c => (encode_utf16 c).foldlM Dest.put d) d
  | [], _ => rfl
  | c :: items, d => by
    rw [wideStores, bind_result, put_result, List.foldlM_cons]
    exact congrArg _ (funext fun d => wide_result items d)

private theorem loop_result (k : Codec) : ∀ (n : Nat) (argv : List Ptr) (d : Dest), (concatLoopStores k n argv d).result = concatLoop k n argv d
  | 0, _, _ => rfl
  | _ + 1, [], _ => rfl
  | n + 1, a :: argv, d => by
    rw [concatLoopStores, bind_result, quiet_result, concatLoop]
    refine congrArg _ (funext fun items => ?_)
    rw [bind_result, encode_result]
    exact congrArg _ (funext fun d => loop_result k n argv d)

private theorem ite_result {α : Type} (c : Prop) [Decidable c] (x y : Traced α) : (if c then x else y).result = if c then x.result else y.result := by
  split <;> rfl

private theorem ite_bind {α β : Type} (c : Prop) [Decidable c] (x y : Res α) (f : α → Res β) : ((if c then x else y) >>= f) = if c then x >>= f else y >>= f := by
  split <;> rfl

private theorem panic_bind {α β : Type} (f : α → Res β) : (Res.panic >>= f) = .panic := rfl

/-- **C158**, the stores belong to the call: after the last of them the destination contains what the call returns, and it panics when the call does. -/
theorem C158_same_call (p : Profile) (ty : StrTy) (call : StringCall) (dest : Ptr) :
    (do let d ← (call.traced p ty dest).result; pure d.mem) = call.run p ty dest := by
  cases call with
  | left src L =>
    simp only [StringCall.traced, StringCall.run, leftStores, left, ite_result, ite_bind, bind_result, quiet_result, panic_bind, bind_assoc, write_result]
  | right src L =>
    simp only [StringCall.traced, StringCall.run, rightStores, right, ite_result, ite_bind, bind_result, quiet_result, panic_bind, bind_assoc, write_result]
  | mid src L P =>
    simp only [StringCall.traced, StringCall.run, midStores, mid, ite_result, ite_bind, bind_result, quiet_result, panic_bind, bind_assoc, write_result]
  | insert a b P =>
    simp only [StringCall.traced, StringCall.run, insertStores, insert, ite_result, ite_bind, bind_result, quiet_result, panic_bind, bind_assoc, write_result]
  | delete src L P =>
    simp only [StringCall.traced, StringCall.run, deleteStores, delete, ite_result, ite_bind, bind_result, quiet_result, panic_bind, bind_assoc, write_result]
  | replace a b L P =>
    simp only [StringCall.traced, StringCall.run, replaceStores, replace, ite_result, ite_bind, bind_result, quiet_result, panic_bind, bind_assoc, write_result]
  | concat argc argv =>
    unfold StringCall.traced StringCall.run concatStores concat
    cases argv with
    | none => rfl
    | some argv => cases dest with
      | none => rfl
      | some mem => dsimp only; rw [loop_result]
  | convert src =>
    cases ty with
    | STRING =>
      simp only [StringCall.traced, StringCall.run, WSTRING_TO_STRING_EXT_stores, WSTRING_TO_STRING_EXT, bind_result, quiet_result, bind_assoc, write_result]
    | WSTRING =>
      simp only [StringCall.traced, StringCall.run, STRING_TO_WSTRING_EXT_stores, STRING_TO_WSTRING_EXT, bind_result, quiet_result, bind_assoc]
      refine congrArg _ (funext fun items => congrArg _ (funext fun d => ?_))
      exact congrArg (fun r : Res Dest => r >>= fun d => pure d.mem) (wide_result items d)

/-! ### Later destinations -/

private def Later (e d : Dest) : Prop :=
  ∃ us : List Nat, d.written = e.written ++ us ∧ us.length ≤ e.room.length ∧
    (d.room = e.room.drop us.length ∨ (us.length < e.room.length ∧ d.room = 0 :: e.room.drop (us.length + 1)))

private theorem later_refl (d : Dest) : Later d d := ⟨[], by simp, by simp, .inl (by simp)⟩

private theorem later_trans {a b c : Dest} (h : Later a b) (h' : Later b c) : Later a c := by
  obtain ⟨us, h1, h2, h3⟩ := h
  obtain ⟨vs, k1, k2, k3⟩ := h'
  refine ⟨us ++ vs, by rw [k1, h1, List.append_assoc], ?_⟩
  rw [List.length_append]
  rcases h3 with h3 | ⟨h3, h4⟩
  · rw [h3] at k2 k3
    rw [List.length_drop] at k2 k3
    refine ⟨by omega, ?_⟩
    rcases k3 with k3 | ⟨k3, k4⟩
    · exact .inl (by rw [k3, List.drop_drop])
    · exact .inr ⟨by omega, by rw [k4, List.drop_drop, Nat.add_assoc]⟩
  · rw [h4] at k2 k3
    rw [List.length_cons, List.length_drop] at k2 k3
    refine ⟨by omega, ?_⟩
    cases vs with
    | nil =>
      refine .inr ⟨by simp; omega, ?_⟩
      rcases k3 with k3 | ⟨_, k3⟩ <;> simpa using k3
    | cons v vs =>
      simp only [List.length_cons, List.drop_succ_cons, List.drop_drop] at k2 k3 ⊢
      rcases k3 with k3 | ⟨k3, k4⟩
      · exact .inl (by rw [k3]; congr 1; omega)
      · exact .inr ⟨by omega, by rw [k4]; congr 2; omega⟩

private def Fine (d : Dest) (x : Traced Dest) : Prop :=
  (∀ e ∈ x.stores, Later d e) ∧ ∀ d', x.result = .ok d' → Later d d' ∧ ∀ e ∈ x.stores, Later e d'

private theorem fine_bind {d : Dest} {x : Traced Dest} {f : Dest → Traced Dest} (hx : Fine d x) (hf : ∀ d', Fine d' (f d')) : Fine d (x >>= f) := by
  show Fine d (Traced.bind x f)
  unfold Traced.bind
  obtain ⟨h1, h2⟩ := hx
  cases hr : x.result with
  | ok a =>
    obtain ⟨h3, h4⟩ := h2 a hr
    obtain ⟨k1, k2⟩ := hf a
    refine ⟨fun e he => ?_, fun d' hd => ⟨later_trans h3 (k2 d' hd).1, fun e he => ?_⟩⟩
    · rcases List.mem_append.1 he with he | he
      · exact h1 e he
      · exact later_trans h3 (k1 e he)
    · rcases List.mem_append.1 he with he | he
      · exact later_trans (h4 e he) (k2 d' hd).1
      · exact (k2 d' hd).2 e he
  | panic => exact ⟨h1, fun _ h => by cases h⟩
  | ub => exact ⟨h1, fun _ h => by cases h⟩

private theorem fine_quiet {α : Type} {d : Dest} {r : Res α} {f : α → Traced Dest} (hf : ∀ a, r = .ok a → Fine d (f a)) : Fine d (Traced.quiet r >>= f) := by
  show Fine d (Traced.bind _ f)
  unfold Traced.bind Traced.quiet
  cases r with
  | ok a => simpa using hf a rfl
  | panic => exact ⟨fun _ h => (by cases h), fun _ h => by cases h⟩
  | ub => exact ⟨fun _ h => (by cases h), fun _ h => by cases h⟩

private theorem fine_stop (d : Dest) (r : Res Dest) (h : ∀ d', r ≠ .ok d') : Fine d (.quiet r) := ⟨fun _ h => (by cases h), fun d' hd => absurd hd (h d')⟩

private theorem fine_pure (d : Dest) : Fine d (pure d) :=
  ⟨fun _ h => (by cases h), fun d' hd => by cases hd; exact ⟨later_refl d, fun _ h => by cases h⟩⟩

private theorem fine_store (d : Dest) (r : Res Dest) (h : ∀ d', r = .ok d' → Later d d') : Fine d (.store r) := by
  cases r with
  | ok a =>
    have : ∀ e, e ∈ [a] → e = a := fun e he => List.mem_singleton.1 he
    refine ⟨fun e he => this e he ▸ h a rfl, fun d' hd => ?_⟩
    cases hd
    exact ⟨h a rfl, fun e he => this e he ▸ later_refl a⟩
  | panic => exact fine_stop d _ fun _ h => by cases h
  | ub => exact fine_stop d _ fun _ h => by cases h

private theorem put_later {d d' : Dest} {u : Nat} (h : d.put u = .ok d') : Later d d' := by
  unfold Dest.put at h
  split at h
  · cases h
  · rename_i x rest hr
    cases h
    exact ⟨[u], rfl, by simp [hr], .inl (by simp [hr])⟩

private theorem terminate_later {d d' : Dest} (h : d.terminate = .ok d') : Later d d' := by
  unfold Dest.terminate at h
  split at h
  · cases h
  · rename_i x rest hr
    cases h
    exact ⟨[], by simp, by simp, .inr ⟨by simp [hr], by simp [hr]⟩⟩

private theorem fine_put : ∀ (us : List Nat) (d : Dest), Fine d (putStores us d)
  | [], d => fine_pure d
  | u :: us, d => by
    rw [putStores]
    exact fine_bind (fine_store _ _ fun _ h => put_later h) fun d' => fine_put us d'

private theorem fine_items (k : Codec) : ∀ (items : List k.Item) (d : Dest), Fine d (k.itemsStores items d)
  | [], d => fine_pure d
  | c :: items, d => by
    rw [Codec.itemsStores]
    exact fine_quiet fun us _ => fine_bind (fine_put us d) fun d' => fine_items k items d'

private theorem fine_encode (k : Codec) (items : List k.Item) (d : Dest) : Fine d (k.encodeStores items d) :=
  fine_bind (fine_items k items d) fun _ => fine_store _ _ fun _ h => terminate_later h

private theorem fine_write (k : Codec) (items : List k.Item) (old : List Nat) : Fine ⟨[], old⟩ (k.writeStores items (some old)) :=
  fine_quiet fun d h => by cases h; exact fine_encode k items _

private theorem fine_wide : ∀ (items : List Char) (d : Dest), Fine d (wideStores items d)
  | [], d => fine_pure d
  | c :: items, d => by
    rw [wideStores]
    exact fine_bind (fine_put _ d) fun d' => fine_wide items d'

private theorem fine_loop (k : Codec) : ∀ (n : Nat) (argv : List Ptr) (d : Dest), Fine d (concatLoopStores k n argv d)
  | 0, _, d => fine_pure d
  | _ + 1, [], d => fine_stop d _ fun _ h => by cases h
  | n + 1, a :: argv, d => by
    rw [concatLoopStores]
    exact fine_quiet fun items _ => fine_bind (fine_encode k items d) fun d' => fine_loop k n argv d'

private theorem fine_ite {d : Dest} {c : Prop} [Decidable c] {x y : Traced Dest} (hx : Fine d x) (hy : Fine d y) : Fine d (if c then x else y) := by
  split
  · exact hx
  · exact hy

private theorem fine_panic (d : Dest) : Fine d (.quiet .panic) := fine_stop d _ fun _ h => by cases h

private theorem fine_call (p : Profile) (ty : StrTy) (call : StringCall) (old : List Nat) : Fine ⟨[], old⟩ (call.traced p ty (some old)) := by
  cases call with
  | left src L => exact fine_ite (fine_panic _) (fine_quiet fun _ _ => fine_ite (fine_panic _) (fine_write _ _ _))
  | right src L => exact fine_ite (fine_panic _) (fine_quiet fun _ _ => fine_ite (fine_panic _) (fine_write _ _ _))
  | mid src L P =>
    exact fine_ite (fine_panic _) (fine_quiet fun _ _ => fine_ite (fine_panic _) (fine_quiet fun _ _ => fine_ite (fine_panic _) (fine_write _ _ _)))
  | insert a b P => exact fine_quiet fun _ _ => fine_ite (fine_panic _) (fine_quiet fun _ _ => fine_write _ _ _)
  | delete src L P => exact fine_quiet fun _ _ => fine_ite (fine_panic _) (fine_quiet fun _ _ => fine_ite (fine_panic _) (fine_write _ _ _))
  | replace a b L P =>
    exact fine_quiet fun _ _ => fine_ite (fine_panic _) (fine_quiet fun _ _ => fine_ite (fine_panic _) (fine_quiet fun _ _ => fine_write _ _ _))
  | concat argc argv =>
    cases argv with
    | none => exact fine_panic _
    | some argv => exact fine_loop _ _ _ _
  | convert src =>
    cases ty with
    | STRING => exact fine_quiet fun _ _ => fine_write _ _ _
    | WSTRING => exact fine_quiet fun items _ => fine_quiet fun d h => by cases h; exact fine_wide items _

private theorem moment_of {p : Profile} {ty : StrTy} {call : StringCall} {old m : List Nat} (hm : m ∈ call.moments p ty old) :
    ∃ e : Dest, m = e.mem ∧ Later ⟨[], old⟩ e ∧ ∀ d', (call.traced p ty (some old)).result = .ok d' → Later e d' := by
  have hf := fine_call p ty call old
  rcases List.mem_cons.1 hm with rfl | hm
  · exact ⟨⟨[], m⟩, rfl, later_refl _, fun d' hd => (hf.2 d' hd).1⟩
  · obtain ⟨e, he, rfl⟩ := List.mem_map.1 hm
    exact ⟨e, rfl, hf.1 e he, fun d' hd => (hf.2 d' hd).2 e he⟩

private theorem result_of {p : Profile} {ty : StrTy} {call : StringCall} {old final : List Nat} (h : call.run p ty (some old) = .ok final) :
    ∃ d, (call.traced p ty (some old)).result = .ok d ∧ final = d.mem ∧ Later ⟨[], old⟩ d := by
  rw [← C158_same_call] at h
  obtain ⟨d, hd, hm⟩ := Res.bind_eq_ok.1 h
  exact ⟨d, hd, (Res.ok.inj hm).symm, ((fine_call p ty call old).2 d hd).1⟩

/-- **C158**, what a variable contains while a call writes it: the first `j` units of what the call returns and the old contents behind them. In between there
may be a terminator, at the end of an argument of CONCAT or of the result. -/
theorem C158_moments (p : Profile) (ty : StrTy) (call : StringCall) (old final : List Nat) (h : call.run p ty (some old) = .ok final) :
    final.length = old.length ∧
    ∀ m ∈ call.moments p ty old, ∃ j, m = final.take j ++ old.drop j ∨ j < old.length ∧ m = final.take j ++ 0 :: old.drop (j + 1) := by
  obtain ⟨d, hd, rfl, us, h1, h2, h3⟩ := result_of h
  refine ⟨?_, fun m hm => ?_⟩
  · unfold Dest.mem
    dsimp only at h1 h2 h3
    rcases h3 with h3 | ⟨h3, h4⟩
    · rw [h1, h3]; simp; omega
    · rw [h1, h4]; simp; omega
  · obtain ⟨e, rfl, ⟨vs, k1, k2, k3⟩, hl⟩ := moment_of hm
    obtain ⟨ws, l1, -, -⟩ := hl d hd
    dsimp only at k1 k2 k3
    rw [List.nil_append] at k1
    have ht : d.mem.take vs.length = e.written := by
      unfold Dest.mem
      rw [l1, k1, List.append_assoc, List.take_left]
    refine ⟨vs.length, ?_⟩
    rw [ht]
    rcases k3 with k3 | ⟨k3, k4⟩
    · exact .inl (by rw [← k3]; rfl)
    · exact .inr ⟨k3, by rw [← k4]; rfl⟩

/-! ### Terminators -/

private def Gives (P : Dest → Prop) (x : Traced Dest) : Prop := ∀ d, x.result = .ok d → P d

private theorem gives_bind {P : Dest → Prop} {x : Traced Dest} {f : Dest → Traced Dest} (hf : ∀ d, Gives P (f d)) : Gives P (x >>= f) := by
  intro d hd
  rw [bind_result] at hd
  obtain ⟨a, -, h⟩ := Res.bind_eq_ok.1 hd
  exact hf a d h

private theorem gives_quiet {α : Type} {P : Dest → Prop} {r : Res α} {f : α → Traced Dest} (hf : ∀ a, r = .ok a → Gives P (f a)) : Gives P (Traced.quiet r >>= f) := by
  intro d hd
  rw [bind_result] at hd
  obtain ⟨a, ha, h⟩ := Res.bind_eq_ok.1 hd
  exact hf a ha d h

private theorem gives_panic {P : Dest → Prop} : Gives P (.quiet .panic) := fun _ h => by cases h

private theorem gives_ite {P : Dest → Prop} {c : Prop} [Decidable c] {x y : Traced Dest} (hx : Gives P x) (hy : Gives P y) : Gives P (if c then x else y) := by
  split
  · exact hx
  · exact hy

private def Ended (d : Dest) : Prop := ∃ rest, d.room = 0 :: rest

private theorem ended_encode (k : Codec) (items : List k.Item) (d : Dest) : Gives Ended (k.encodeStores items d) := by
  refine gives_bind fun d d' h => ?_
  rw [store_result] at h
  unfold Dest.terminate at h
  split at h
  · cases h
  · cases h; exact ⟨_, rfl⟩

private theorem ended_write (k : Codec) (items : List k.Item) (dest : Ptr) : Gives Ended (k.writeStores items dest) :=
  gives_quiet fun d _ => ended_encode k items d

private theorem ended_loop (k : Codec) : ∀ (n : Nat) (argv : List Ptr) (d : Dest), Gives (fun e => e = d ∨ Ended e) (concatLoopStores k n argv d)
  | 0, _, d => fun e h => by cases h; exact .inl rfl
  | _ + 1, [], _ => fun _ h => by cases h
  | n + 1, a :: argv, d => by
    intro e he
    rw [concatLoopStores, bind_result] at he
    obtain ⟨items, -, he⟩ := Res.bind_eq_ok.1 he
    rw [bind_result] at he
    obtain ⟨d', hd', he⟩ := Res.bind_eq_ok.1 he
    have hE := ended_encode k items d d' hd'
    rcases ended_loop k n argv d' e he with rfl | h
    · exact .inr hE
    · exact .inr h

private theorem ended_call (p : Profile) (ty : StrTy) (call : StringCall) (old : List Nat) (hc : (∀ src, call ≠ .convert src) ∨ ty = .STRING) :
    Gives (fun d => d = ⟨[], old⟩ ∨ Ended d) (call.traced p ty (some old)) := by
  have w : ∀ items, Gives (fun d => d = ⟨[], old⟩ ∨ Ended d) ((codecOf ty).writeStores items (some old)) := fun items d h => .inr (ended_write _ _ _ d h)
  cases call with
  | left src L => exact gives_ite gives_panic (gives_quiet fun _ _ => gives_ite gives_panic (w _))
  | right src L => exact gives_ite gives_panic (gives_quiet fun _ _ => gives_ite gives_panic (w _))
  | mid src L P =>
    exact gives_ite gives_panic (gives_quiet fun _ _ => gives_ite gives_panic (gives_quiet fun _ _ => gives_ite gives_panic (w _)))
  | insert a b P => exact gives_quiet fun _ _ => gives_ite gives_panic (gives_quiet fun _ _ => w _)
  | delete src L P => exact gives_quiet fun _ _ => gives_ite gives_panic (gives_quiet fun _ _ => gives_ite gives_panic (w _))
  | replace a b L P =>
    exact gives_quiet fun _ _ => gives_ite gives_panic (gives_quiet fun _ _ => gives_ite gives_panic (gives_quiet fun _ _ => w _))
  | concat argc argv =>
    cases argv with
    | none => exact gives_panic
    | some argv => exact ended_loop _ _ _ _
  | convert src =>
    rcases hc with hc | rfl
    · exact absurd rfl (hc src)
    · exact gives_quiet fun _ _ => w _

private theorem last_zero {l : List Nat} (h : l.getLast? = some 0) {n : Nat} (hn : n < l.length) : (l.drop n).getLast? = some 0 := by
  rw [List.getLast?_drop, if_neg (by omega), h]

private theorem last_append {a b : List Nat} (h : b.getLast? = some 0) : (a ++ b).getLast? = some 0 := by
  rw [List.getLast?_append, h]; rfl

private theorem last_cons {l : List Nat} (h : l = [] ∨ l.getLast? = some 0) : (0 :: l).getLast? = some 0 := by
  rcases h with rfl | h
  · rfl
  · exact last_append (a := [0]) h

/-- **C158**, terminators: a variable whose last unit is zero keeps that zero, so that it always contains a terminator; a task that reads it in the middle of a call does not
read behind it. STRING_TO_WSTRING, which writes no terminator, is left out. -/
theorem C158_terminated_partial (p : Profile) (ty : StrTy) (call : StringCall) (hc : (∀ src, call ≠ .convert src) ∨ ty = .STRING) (old final : List Nat)
    (h : call.run p ty (some old) = .ok final) (h0 : old.getLast? = some 0) :
    final.getLast? = some 0 ∧ ∀ m ∈ call.moments p ty old, m.getLast? = some 0 ∧ ∃ s, Holds m s := by
  have hf : final.getLast? = some 0 := by
    obtain ⟨d, hd, rfl, us, h1, h2, h3⟩ := result_of h
    rcases ended_call p ty call old hc d hd with rfl | ⟨rest, hr⟩
    · exact h0
    · refine last_append ?_
      rcases h3 with h3 | ⟨h3, h4⟩
      · rw [h3]
        have : (old.drop us.length).length = rest.length + 1 := by rw [← h3, hr]; rfl
        rw [List.length_drop] at this
        exact last_zero h0 (by omega)
      · rw [h4]
        refine last_cons ?_
        by_cases hl : us.length + 1 < old.length
        · exact .inr (last_zero h0 hl)
        · exact .inl (List.drop_eq_nil_of_le (by dsimp only; omega))
  refine ⟨hf, fun m hm => ?_⟩
  have hlast : m.getLast? = some 0 := by
    obtain ⟨hl, hm'⟩ := C158_moments p ty call old final h
    obtain ⟨j, rfl | ⟨hj, rfl⟩⟩ := hm' m hm
    · by_cases hj : j < old.length
      · exact last_append (last_zero h0 hj)
      · rw [List.drop_eq_nil_of_le (by omega), List.append_nil, List.take_of_length_le (by omega)]; exact hf
    · refine last_append (last_cons ?_)
      by_cases hl : j + 1 < old.length
      · exact .inr (last_zero h0 hl)
      · exact .inl (List.drop_eq_nil_of_le (by omega))
  refine ⟨hlast, ?_⟩
  rcases holds_or_no_zero m with hs | hn
  · exact hs
  · exact absurd rfl (hn 0 (List.mem_of_getLast? hlast))

/-! ### What a reader finds -/

/-- **C158**, a reader that walks from unit to unit while the call goes on, so that it finds unit `i` of the variable as it is at the moment `at_ i`: it comes to a terminator within
the variable, and every unit in front of it is one of the old or one of the new text. STRING_TO_WSTRING is left out. -/
theorem C158_reader_partial (p : Profile) (ty : StrTy) (call : StringCall) (hc : (∀ src, call ≠ .convert src) ∨ ty = .STRING) (old final : List Nat)
    (h : call.run p ty (some old) = .ok final) (h0 : old.getLast? = some 0) (at_ : Nat → List Nat) (hat : ∀ i, at_ i ∈ call.moments p ty old) :
    ∃ n, n < old.length ∧ (at_ n)[n]? = some 0 ∧ ∀ i, i < n → ∃ u, u ≠ 0 ∧ (at_ i)[i]? = some u ∧ (old[i]? = some u ∨ final[i]? = some u) := by
  obtain ⟨hl, hm⟩ := C158_moments p ty call old final h
  have hlen : ∀ i, (at_ i).length = old.length := by
    intro i
    obtain ⟨j, e | ⟨hj, e⟩⟩ := hm _ (hat i) <;> rw [e] <;> simp <;> omega
  have hpos : 0 < old.length := by cases old with | nil => cases h0 | cons _ _ => simp
  have hex : ∃ n, (at_ n)[n]? = some 0 := by
    refine ⟨old.length - 1, ?_⟩
    have := ((C158_terminated_partial p ty call hc old final h h0).2 _ (hat (old.length - 1))).1
    rwa [List.getLast?_eq_getElem?, hlen] at this
  refine ⟨Nat.find hex, ?_, Nat.find_spec hex, fun i hi => ?_⟩
  · have := Nat.find_spec hex
    have := (List.getElem?_eq_some_iff.1 this).1
    rwa [hlen] at this
  · have hn := Nat.find_min hex hi
    have hlt : i < (at_ i).length := by
      have := (List.getElem?_eq_some_iff.1 (Nat.find_spec hex)).1
      rw [hlen] at this ⊢; omega
    have hu : (at_ i)[i]? = some (at_ i)[i] := List.getElem?_eq_getElem hlt
    refine ⟨_, fun e => hn (by rw [hu, e]), hu, ?_⟩
    rw [← hu]
    rw [hu] at hn
    rw [hlen] at hlt
    generalize hx : (at_ i)[i] = x at *
    obtain ⟨j, e | ⟨hj, e⟩⟩ := hm _ (hat i)
    · rw [e]
      by_cases hij : i < j
      · exact .inr (by rw [List.getElem?_append_left (by simp; omega), List.getElem?_take, if_pos hij])
      · refine .inl ?_
        rw [List.getElem?_append_right (by simp; omega), List.getElem?_drop]
        congr 1; simp; omega
    · rw [e]
      by_cases hij : i < j
      · exact .inr (by rw [List.getElem?_append_left (by simp; omega), List.getElem?_take, if_pos hij])
      · have hmin : min j final.length = j := by omega
        by_cases hij' : i = j
        · subst hij'
          refine absurd ?_ hn
          rw [← hu, e, List.getElem?_append_right (by simp)]
          simp [hmin]
        · refine .inl ?_
          rw [List.getElem?_append_right (by simp; omega)]
          have : i - (List.take j final).length = (i - j - 1) + 1 := by simp; omega
          rw [this, List.getElem?_cons_succ, List.getElem?_drop]
          congr 1; omega

/-- "cd" is written over "ab": the reader takes its first unit from before the call and its second one from after it, and finds "ad". -/
example : ∃ final, (StringCall.left (some [99, 100, 0]) 2).run .debug .STRING (some [97, 98, 0]) = .ok final ∧
    [97, 98, 0] ∈ (StringCall.left (some [99, 100, 0]) 2).moments .debug .STRING [97, 98, 0] ∧
    final ∈ (StringCall.left (some [99, 100, 0]) 2).moments .debug .STRING [97, 98, 0] ∧ [97, 98, 0][0]? = some 97 ∧ final[1]? = some 100 ∧ final[2]? = some 0 := by
  refine ⟨[99, 100, 0], ?_⟩; decide

/-- **C158**, a variable with nothing behind its text `s`: while a call writes the text `t`, a reader finds the first `j` units of `t` followed by what is left of `s` behind
its first `j` units, or only the first `j` units of `t`. -/
theorem C158_reads_partial (p : Profile) (ty : StrTy) (call : StringCall) (s t final : List Nat) (n : Nat) (h : call.run p ty (some (s ++ List.replicate (n + 1) 0)) = .ok final)
    (hs : ∀ u ∈ s, u ≠ 0) (ht : Holds final t) (m : List Nat) (hm : m ∈ call.moments p ty (s ++ List.replicate (n + 1) 0)) :
    ∃ j, Holds m (t.take j ++ s.drop j) ∨ Holds m (t.take j) := by
  obtain ⟨hl, hm'⟩ := C158_moments p ty call _ final h
  obtain ⟨ht0, tail, rfl⟩ := ht
  have hlen : t.length < s.length + (n + 1) := by
    have := hl; simp at this; omega
  have htake : ∀ j, ∀ u ∈ t.take j, u ≠ 0 := fun j u hu => ht0 u (List.mem_of_mem_take hu)
  have behind : ∀ (j : Nat) (l : List Nat), t.length < j → Holds ((t ++ 0 :: tail).take j ++ l) (t.take j) := by
    intro j l hj
    obtain ⟨i, rfl⟩ : ∃ i, j = t.length + (i + 1) := ⟨j - t.length - 1, by omega⟩
    refine ⟨htake _, tail.take i ++ l, ?_⟩
    rw [List.take_length_add_append, List.take_succ_cons, List.append_assoc, List.cons_append, List.take_of_length_le (l := t) (by omega)]
  obtain ⟨j, rfl | ⟨hj, rfl⟩⟩ := hm' m hm
  · refine ⟨j, ?_⟩
    by_cases hj : t.length < j
    · exact .inr (behind j _ hj)
    · rw [List.take_append_of_le_length (by omega)]
      by_cases hjs : j ≤ s.length
      · rw [List.drop_append_of_le_length hjs]
        exact .inl ⟨fun u hu => (List.mem_append.1 hu).elim (htake j u) fun hu => hs u (List.mem_of_mem_drop hu),
          List.replicate n 0, by rw [List.replicate_succ, List.append_assoc]⟩
      · right
        rw [List.drop_append, List.drop_eq_nil_of_le (by omega), List.nil_append, List.drop_replicate]
        obtain ⟨c, hc⟩ : ∃ c, n + 1 - (j - s.length) = c + 1 := ⟨n + 1 - (j - s.length) - 1, by omega⟩
        rw [hc]
        exact ⟨htake j, List.replicate c 0, rfl⟩
  · refine ⟨j, .inr ?_⟩
    by_cases hj : t.length < j
    · exact behind j _ hj
    · rw [List.take_append_of_le_length (by omega)]
      exact ⟨htake j, _, rfl⟩

/-- **C158**, a variable that contains only zeros before the call: a reader finds a part of the result from its beginning. -/
theorem C158_fresh_partial (p : Profile) (ty : StrTy) (call : StringCall) (n : Nat) (t final : List Nat) (h : call.run p ty (some (List.replicate (n + 1) 0)) = .ok final)
    (ht : Holds final t) (m : List Nat) (hm : m ∈ call.moments p ty (List.replicate (n + 1) 0)) : ∃ j, Holds m (t.take j) := by
  obtain ⟨j, hj⟩ := C158_reads_partial p ty call [] t final n h (fun _ h => by cases h) ht m hm
  exact ⟨j, by simpa using hj⟩

/-- A unit that is a character by itself: an ASCII character (STRING), no surrogate (WSTRING). -/
def SingleUnit : StrTy → Nat → Prop
  | .STRING, u => u < 128
  | .WSTRING, u => u < 0xD800 ∨ 0xDFFF < u ∧ u < 65536

/-- Units that are characters by themselves are a text. -/
theorem text_of_single_units (ty : StrTy) (s : List Nat) (hall : ∀ u ∈ s, SingleUnit ty u) : ∃ text, s = ty.units text := by
  induction s with
  | nil => exact ⟨[], (units_nil ty).symm⟩
  | cons u s ih =>
    obtain ⟨text, ht⟩ := ih fun x hx => hall x (List.mem_cons_of_mem _ hx)
    have hu' := hall u List.mem_cons_self
    refine ⟨Char.ofNat u :: text, ?_⟩
    rw [units_cons, ← ht]
    cases ty with
    | STRING =>
      have : (Char.ofNat u).toNat = u := toNat_ofNat (by dsimp only [SingleUnit] at hu'; omega)
      show u :: s = (utf8Char (Char.ofNat u) ++ []) ++ s
      unfold utf8Char
      dsimp only [SingleUnit] at hu' ⊢
      rw [this, if_pos hu']; rfl
    | WSTRING =>
      have : (Char.ofNat u).toNat = u := toNat_ofNat (by dsimp only [SingleUnit] at hu'; omega)
      show u :: s = (utf16Char (Char.ofNat u) ++ []) ++ s
      unfold utf16Char
      dsimp only [SingleUnit] at hu' ⊢
      rw [this, if_pos (by omega)]; rfl

/-- **C158**, characters of one unit: if all units that the variable contains before and after the call are ASCII characters (STRING) or no surrogates (WSTRING), a reader finds
well-formed text at every moment at which there is a terminator. -/
theorem C158_single_units_partial (p : Profile) (ty : StrTy) (call : StringCall) (old final : List Nat) (h : call.run p ty (some old) = .ok final)
    (hu : ∀ u ∈ old ++ final, SingleUnit ty u)
    (m s : List Nat) (hm : m ∈ call.moments p ty old) (hs : Holds m s) : ∃ text, s = ty.units text := by
  have hall : ∀ u ∈ s, SingleUnit ty u := by
    intro u hus
    obtain ⟨h0, tail, rfl⟩ := hs
    obtain ⟨-, hm'⟩ := C158_moments p ty call old final h
    obtain ⟨j, hj | ⟨-, hj⟩⟩ := hm' _ hm
    · have : u ∈ final.take j ++ old.drop j := hj ▸ List.mem_append_left _ hus
      exact hu u (List.mem_append.2 ((List.mem_append.1 this).symm.imp List.mem_of_mem_drop List.mem_of_mem_take))
    · have : u ∈ final.take j ++ 0 :: old.drop (j + 1) := hj ▸ List.mem_append_left _ hus
      rcases List.mem_append.1 this with h' | h'
      · exact hu u (List.mem_append_right _ (List.mem_of_mem_take h'))
      · rcases List.mem_cons.1 h' with h' | h'
        · exact absurd h' (h0 u hus)
        · exact hu u (List.mem_append_left _ (List.mem_of_mem_drop h'))
  exact text_of_single_units ty s hall

/-- **C158 is false of the code**: 'ab' written over '' is 'a' for a moment. -/
theorem C158_refuted (p : Profile) (ty : StrTy) : ¬ ReadsOldOrNew p ty := by
  intro h
  have key : ∀ s, Holds [97, 0, 0] s → s = [97] := fun s hs => holds_unique hs ⟨by decide, [0], rfl⟩
  have hr : (StringCall.left (some [97, 98, 0]) 2).run p ty (some [0, 0, 0]) = .ok [97, 98, 0] := by cases ty <;> cases p <;> decide
  have hm : [97, 0, 0] ∈ (StringCall.left (some [97, 98, 0]) 2).moments p ty [0, 0, 0] := by cases ty <;> cases p <;> decide
  rcases h _ _ _ [] [97, 98] hr ⟨by decide, [0, 0], rfl⟩ ⟨by decide, [], rfl⟩ _ hm with h | h
  · cases key _ h
  · cases key _ h

/-- In the middle of a call there may be text that is not well-formed, on which LEN panics (the first byte of 'ä'; for WSTRING a surrogate, which LEFT rejects), and no
terminator at all, although there is one before and after the call (old contents behind the terminator). -/
theorem C158_malformed (p : Profile) :
    (∃ m ∈ (StringCall.left (some [0xC3, 0xA4, 0]) 1).moments p .STRING [0, 0, 0], len codec8 (some m) = .panic) ∧
    (∃ m ∈ (StringCall.left (some [0xD83D, 0xDE00, 0]) 1).moments p .WSTRING [0, 0, 0], left codec16 (some m) 1 (some [0, 0, 0]) = .panic) ∧
    ∀ ty, (StringCall.left (some [97, 98, 0]) 2).run p ty (some [0, 9, 9]) = .ok [97, 98, 0] ∧
      ∃ m ∈ (StringCall.left (some [97, 98, 0]) 2).moments p ty [0, 9, 9], ∀ u ∈ m, u ≠ 0 := by
  refine ⟨⟨[0xC3, 0, 0], by cases p <;> decide, by decide⟩, ⟨[0xD83D, 0, 0], by cases p <;> decide, by decide⟩, fun ty => ⟨by cases ty <;> cases p <;> decide, [97, 9, 9], ?_, by decide⟩⟩
  cases ty <;> cases p <;> decide

/-! ### Power failures -/

private def Twin (o₁ o₂ : List Nat) (d₁ d₂ : Dest) : Prop :=
  d₁.written = d₂.written ∧
    (d₁.room = o₁.drop d₁.written.length ∧ d₂.room = o₂.drop d₁.written.length ∨
      d₁.written.length < o₁.length ∧ d₁.room = 0 :: o₁.drop (d₁.written.length + 1) ∧ d₂.room = 0 :: o₂.drop (d₁.written.length + 1))

private def Twins (o₁ o₂ : List Nat) (x y : Traced Dest) : Prop :=
  (∃ d₁ d₂, x.result = .ok d₁ ∧ y.result = .ok d₂ ∧ Twin o₁ o₂ d₁ d₂) ∨ (x.result = .panic ∧ y.result = .panic) ∨ (x.result = .ub ∧ y.result = .ub)

private theorem twins_bind {o₁ o₂ : List Nat} {x y : Traced Dest} {f g : Dest → Traced Dest} (h : Twins o₁ o₂ x y)
    (hf : ∀ d₁ d₂, Twin o₁ o₂ d₁ d₂ → Twins o₁ o₂ (f d₁) (g d₂)) : Twins o₁ o₂ (x >>= f) (y >>= g) := by
  unfold Twins
  rw [bind_result, bind_result]
  rcases h with ⟨d₁, d₂, h1, h2, h⟩ | ⟨h1, h2⟩ | ⟨h1, h2⟩
  · rw [h1, h2]; exact hf d₁ d₂ h
  · rw [h1, h2]; exact .inr (.inl ⟨rfl, rfl⟩)
  · rw [h1, h2]; exact .inr (.inr ⟨rfl, rfl⟩)

private theorem twins_quiet {α : Type} {o₁ o₂ : List Nat} {r : Res α} {f g : α → Traced Dest} (hf : ∀ a, Twins o₁ o₂ (f a) (g a)) :
    Twins o₁ o₂ (Traced.quiet r >>= f) (Traced.quiet r >>= g) := by
  unfold Twins
  rw [bind_result, bind_result]
  cases r with
  | ok a => exact hf a
  | panic => exact .inr (.inl ⟨rfl, rfl⟩)
  | ub => exact .inr (.inr ⟨rfl, rfl⟩)

private theorem twins_panic {o₁ o₂ : List Nat} : Twins o₁ o₂ (.quiet .panic) (.quiet .panic) := .inr (.inl ⟨rfl, rfl⟩)

private theorem twins_ite {o₁ o₂ : List Nat} {c : Prop} [Decidable c] {x y x' y' : Traced Dest} (h : Twins o₁ o₂ x x') (h' : Twins o₁ o₂ y y') :
    Twins o₁ o₂ (if c then x else y) (if c then x' else y') := by
  split
  · exact h
  · exact h'

private theorem twins_put {o₁ o₂ : List Nat} (hl : o₁.length = o₂.length) (u : Nat) (d₁ d₂ : Dest) (h : Twin o₁ o₂ d₁ d₂) :
    Twins o₁ o₂ (.store (d₁.put u)) (.store (d₂.put u)) := by
  unfold Twins
  rw [store_result, store_result]
  obtain ⟨h1, h2 | ⟨h0, h2, h3⟩⟩ := h
  · obtain ⟨h2, h3⟩ := h2
    by_cases hd : d₁.written.length < o₁.length
    · refine .inl ⟨⟨d₁.written ++ [u], o₁.drop (d₁.written.length + 1)⟩, ⟨d₂.written ++ [u], o₂.drop (d₁.written.length + 1)⟩, ?_, ?_, ?_⟩
      · unfold Dest.put; rw [h2, List.drop_eq_getElem_cons hd]
      · unfold Dest.put; rw [h3, List.drop_eq_getElem_cons (by omega)]
      · exact ⟨by rw [h1], .inl ⟨by simp, by simp⟩⟩
    · refine .inr (.inr ⟨?_, ?_⟩)
      · unfold Dest.put; rw [h2, List.drop_eq_nil_of_le (by omega)]
      · unfold Dest.put; rw [h3, List.drop_eq_nil_of_le (by omega)]
  · refine .inl ⟨⟨d₁.written ++ [u], o₁.drop (d₁.written.length + 1)⟩, ⟨d₂.written ++ [u], o₂.drop (d₁.written.length + 1)⟩, ?_, ?_, ?_⟩
    · unfold Dest.put; rw [h2]
    · unfold Dest.put; rw [h3]
    · exact ⟨by rw [h1], .inl ⟨by simp, by simp⟩⟩

private theorem twins_terminate {o₁ o₂ : List Nat} (hl : o₁.length = o₂.length) (d₁ d₂ : Dest) (h : Twin o₁ o₂ d₁ d₂) :
    Twins o₁ o₂ (.store d₁.terminate) (.store d₂.terminate) := by
  unfold Twins
  rw [store_result, store_result]
  obtain ⟨h1, h2 | ⟨h0, h2, h3⟩⟩ := h
  · obtain ⟨h2, h3⟩ := h2
    by_cases hd : d₁.written.length < o₁.length
    · refine .inl ⟨⟨d₁.written, 0 :: o₁.drop (d₁.written.length + 1)⟩, ⟨d₂.written, 0 :: o₂.drop (d₁.written.length + 1)⟩, ?_, ?_, ?_⟩
      · unfold Dest.terminate; rw [h2, List.drop_eq_getElem_cons hd]
      · unfold Dest.terminate; rw [h3, List.drop_eq_getElem_cons (by omega)]
      · exact ⟨h1, .inr ⟨hd, rfl, rfl⟩⟩
    · refine .inr (.inr ⟨?_, ?_⟩)
      · unfold Dest.terminate; rw [h2, List.drop_eq_nil_of_le (by omega)]
      · unfold Dest.terminate; rw [h3, List.drop_eq_nil_of_le (by omega)]
  · refine .inl ⟨⟨d₁.written, 0 :: o₁.drop (d₁.written.length + 1)⟩, ⟨d₂.written, 0 :: o₂.drop (d₁.written.length + 1)⟩, ?_, ?_, ?_⟩
    · unfold Dest.terminate; rw [h2]
    · unfold Dest.terminate; rw [h3]
    · exact ⟨h1, .inr ⟨h0, rfl, rfl⟩⟩

section
variable {o₁ o₂ : List Nat} (hl : o₁.length = o₂.length)
include hl

private theorem twins_puts : ∀ (us : List Nat) (d₁ d₂ : Dest), Twin o₁ o₂ d₁ d₂ → Twins o₁ o₂ (putStores us d₁) (putStores us d₂)
  | [], d₁, d₂, h => .inl ⟨d₁, d₂, rfl, rfl, h⟩
  | u :: us, d₁, d₂, h => by
    rw [putStores, putStores]
    exact twins_bind (twins_put hl u d₁ d₂ h) fun e₁ e₂ he => twins_puts us e₁ e₂ he

private theorem twins_items (k : Codec) : ∀ (items : List k.Item) (d₁ d₂ : Dest), Twin o₁ o₂ d₁ d₂ → Twins o₁ o₂ (k.itemsStores items d₁) (k.itemsStores items d₂)
  | [], d₁, d₂, h => .inl ⟨d₁, d₂, rfl, rfl, h⟩
  | c :: items, d₁, d₂, h => by
    rw [Codec.itemsStores, Codec.itemsStores]
    exact twins_quiet fun us => twins_bind (twins_puts hl us d₁ d₂ h) fun e₁ e₂ he => twins_items k items e₁ e₂ he

private theorem twins_encode (k : Codec) (items : List k.Item) (d₁ d₂ : Dest) (h : Twin o₁ o₂ d₁ d₂) :
    Twins o₁ o₂ (k.encodeStores items d₁) (k.encodeStores items d₂) :=
  twins_bind (twins_items hl k items d₁ d₂ h) fun e₁ e₂ he => twins_terminate hl e₁ e₂ he

private theorem twins_wide : ∀ (items : List Char) (d₁ d₂ : Dest), Twin o₁ o₂ d₁ d₂ → Twins o₁ o₂ (wideStores items d₁) (wideStores items d₂)
  | [], d₁, d₂, h => .inl ⟨d₁, d₂, rfl, rfl, h⟩
  | c :: items, d₁, d₂, h => by
    rw [wideStores, wideStores]
    exact twins_bind (twins_puts hl _ d₁ d₂ h) fun e₁ e₂ he => twins_wide items e₁ e₂ he

private theorem twins_loop (k : Codec) : ∀ (n : Nat) (argv : List Ptr) (d₁ d₂ : Dest), Twin o₁ o₂ d₁ d₂ →
    Twins o₁ o₂ (concatLoopStores k n argv d₁) (concatLoopStores k n argv d₂)
  | 0, _, d₁, d₂, h => .inl ⟨d₁, d₂, rfl, rfl, h⟩
  | _ + 1, [], _, _, _ => .inr (.inr ⟨rfl, rfl⟩)
  | n + 1, a :: argv, d₁, d₂, h => by
    rw [concatLoopStores, concatLoopStores]
    exact twins_quiet fun items => twins_bind (twins_encode hl k items d₁ d₂ h) fun e₁ e₂ he => twins_loop k n argv e₁ e₂ he

private theorem twins_call (p : Profile) (ty : StrTy) (call : StringCall) : Twins o₁ o₂ (call.traced p ty (some o₁)) (call.traced p ty (some o₂)) := by
  have start : Twin o₁ o₂ ⟨[], o₁⟩ ⟨[], o₂⟩ := ⟨rfl, .inl ⟨rfl, rfl⟩⟩
  have w : ∀ (k : Codec) (items : List k.Item), Twins o₁ o₂ (k.writeStores items (some o₁)) (k.writeStores items (some o₂)) := by
    intro k items
    have := twins_encode hl k items _ _ start
    unfold Twins at this ⊢
    rw [Codec.writeStores, bind_result, Codec.writeStores, bind_result]
    exact this
  cases call with
  | left src L => exact twins_ite twins_panic (twins_quiet fun _ => twins_ite twins_panic (w _ _))
  | right src L => exact twins_ite twins_panic (twins_quiet fun _ => twins_ite twins_panic (w _ _))
  | mid src L P =>
    exact twins_ite twins_panic (twins_quiet fun _ => twins_ite twins_panic (twins_quiet fun _ => twins_ite twins_panic (w _ _)))
  | insert a b P => exact twins_quiet fun _ => twins_ite twins_panic (twins_quiet fun _ => w _ _)
  | delete src L P => exact twins_quiet fun _ => twins_ite twins_panic (twins_quiet fun _ => twins_ite twins_panic (w _ _))
  | replace a b L P =>
    exact twins_quiet fun _ => twins_ite twins_panic (twins_quiet fun _ => twins_ite twins_panic (twins_quiet fun _ => w _ _))
  | concat argc argv =>
    cases argv with
    | none => exact twins_panic
    | some argv => exact twins_loop hl _ _ _ _ _ start
  | convert src =>
    cases ty with
    | STRING => exact twins_quiet fun _ => w _ _
    | WSTRING =>
      refine twins_quiet fun items => ?_
      have := twins_wide hl items _ _ start
      unfold Twins at this ⊢
      rw [bind_result, bind_result]
      exact this

end

/-- **C158**, power failures: if the call is cut off at any moment and made again afterwards, the variable contains exactly what it would contain without the
power failure. -/
theorem C158_again (p : Profile) (ty : StrTy) (call : StringCall) (old final : List Nat) (h : call.run p ty (some old) = .ok final)
    (m : List Nat) (hm : m ∈ call.moments p ty old) : call.run p ty (some m) = .ok final := by
  obtain ⟨d, hd, rfl, -⟩ := result_of h
  obtain ⟨e, rfl, ⟨vs, k1, k2, k3⟩, hl⟩ := moment_of hm
  obtain ⟨ws, l1, l2, l3⟩ := hl d hd
  dsimp only at k1 k2 k3
  rw [List.nil_append] at k1
  have hlen : old.length = e.mem.length := by
    unfold Dest.mem
    rcases k3 with k3 | ⟨k3, k4⟩
    · rw [k1, k3]; simp; omega
    · rw [k1, k4]; simp; omega
  rw [← C158_same_call]
  rcases twins_call hlen p ty call with ⟨d₁, d₂, h1, h2, hw, ht⟩ | ⟨h1, -⟩ | ⟨h1, -⟩
  · rw [hd] at h1
    cases h1
    rw [h2]
    show Res.ok _ = Res.ok _
    congr 1
    have n1 : d.written.length = vs.length + ws.length := by rw [l1, k1, List.length_append]
    have hdrop : ∀ i, e.mem.drop (vs.length + i) = e.room.drop i := by
      intro i; unfold Dest.mem; rw [k1, List.drop_append, List.drop_eq_nil_of_le (by omega)]; simp
    unfold Dest.mem
    rw [← hw]
    congr 1
    rcases ht with ⟨t1, t2⟩ | ⟨_, t1, t2⟩
    · rw [t2, n1, hdrop]
      rcases l3 with l3 | ⟨l3, l4⟩
      · exact l3.symm
      · rcases k3 with k3 | ⟨k3, k4⟩
        · rw [k3, List.drop_drop, t1, n1]
        · rw [k4]
          cases ws with
          | nil => rw [l4, k4]; rfl
          | cons w ws =>
            rw [t1, n1]
            simp only [List.length_cons, List.drop_succ_cons, List.drop_drop]
            congr 1
            omega
    · rw [t2, t1, n1, Nat.add_assoc, hdrop]
      rcases k3 with k3 | ⟨k3, k4⟩
      · rw [k3, List.drop_drop]
      · rw [k4, List.drop_succ_cons, List.drop_drop]
        congr 2
        omega
  · rw [hd] at h1; cases h1
  · rw [hd] at h1; cases h1

/-- The memory `m` of a variable in the middle of a call, whatever the order of the stores is: each unit is the one from before or the one from after the
call. -/
def Mixed (old final m : List Nat) : Prop := m.length = old.length ∧ ∀ i : Nat, m[i]? = old[i]? ∨ m[i]? = final[i]?

private theorem mixed_drop {old final m : List Nat} {n : Nat} (h : Mixed old final m) (hf : final.drop n = old.drop n) : m.drop n = old.drop n := by
  apply List.ext_getElem?
  intro i
  have := congrArg (fun l : List Nat => l[i]?) hf
  simp only [List.getElem?_drop] at this ⊢
  rcases h.2 (n + i) with h | h
  · exact h
  · rw [h, this]

/-- **C158**, power failures, if the compiler or the processor changes the order of the stores: the call, made again over any mixture of the contents before and
after, yields what it would yield without the failure. -/
theorem C158_any_order (p : Profile) (ty : StrTy) (call : StringCall) (old final m : List Nat) (h : call.run p ty (some old) = .ok final)
    (hm : Mixed old final m) : call.run p ty (some m) = .ok final := by
  obtain ⟨d, hd, rfl, -⟩ := result_of h
  rw [← C158_same_call]
  rcases twins_call hm.1.symm p ty call with ⟨d₁, d₂, h1, h2, hw, ht⟩ | ⟨h1, -⟩ | ⟨h1, -⟩
  · rw [hd] at h1
    cases h1
    rw [h2]
    show Res.ok _ = Res.ok _
    congr 1
    have hdrop : ∀ i, d.mem.drop (d.written.length + i) = d.room.drop i := by
      intro i; unfold Dest.mem; rw [List.drop_append, List.drop_eq_nil_of_le (by omega)]; simp
    rcases ht with ⟨t1, t2⟩ | ⟨_, t1, t2⟩
    · have := mixed_drop (n := d.written.length) hm (by have := hdrop 0; simp only [Nat.add_zero, List.drop_zero] at this; rw [this, t1])
      unfold Dest.mem
      rw [← hw, t1, t2, this]
    · have := mixed_drop (n := d.written.length + 1) hm (by rw [hdrop 1, t1]; rfl)
      unfold Dest.mem
      rw [← hw, t1, t2, this]
  · rw [hd] at h1; cases h1
  · rw [hd] at h1; cases h1

/-- The same for the conversions of numbers, dates and times of day to text. -/
theorem C158_text_any_order (f : Ptr → Res (List Nat))
    (hf : (∃ n, f = BYTE_TO_STRING_EXT n) ∨ (∃ n, f = LWORD_TO_STRING_EXT n) ∨ (∃ i, f = LINT_TO_STRING_EXT i) ∨ (∃ x, f = REAL_TO_STRING_EXT x) ∨
      (∃ x, f = LREAL_TO_STRING_EXT x) ∨ (∃ i, f = DT_TO_STRING_EXT i) ∨ (∃ i, f = DATE_TO_STRING_EXT i) ∨ ∃ i, f = TOD_TO_STRING_EXT i)
    (old final m : List Nat) (h : f (some old) = .ok final) (hm : Mixed old final m) : f (some m) = .ok final := by
  obtain ⟨text, ht⟩ : ∃ text, ∀ mem, f (some mem) = writeBuf (some mem) text := by
    rcases hf with ⟨n, rfl⟩ | ⟨n, rfl⟩ | ⟨n, rfl⟩ | ⟨n, rfl⟩ | ⟨n, rfl⟩ | ⟨n, rfl⟩ | ⟨n, rfl⟩ | ⟨n, rfl⟩ <;>
      first
      | exact ⟨_, fun _ => rfl⟩
      | exact if hc : floorLt .f64 n 1000000 = true then ⟨_, fun _ => if_pos hc⟩ else ⟨_, fun _ => if_neg hc⟩
      | exact if hc : floorLt .f64 n 100000000000000 = true then ⟨_, fun _ => if_pos hc⟩ else ⟨_, fun _ => if_neg hc⟩
  rw [ht] at h ⊢
  unfold writeBuf at h ⊢
  dsimp only at h ⊢
  rw [hm.1]
  split at h
  · cases h
  · split at h
    · cases h
    · rename_i h1 h2
      rw [if_neg h1, if_neg h2]
      have := Res.ok.inj h
      subst this
      rw [mixed_drop hm]
      rw [List.drop_append, List.drop_eq_nil_of_le (Nat.le_refl _)]; simp

/-- TIME_TO_STRING_EXT is the exception: T#1d2h over zeros, cut off before the last byte, becomes '1d22h' when the call is made again. -/
theorem C158_time_refuted : ∃ old final m, TIME_TO_STRING_EXT 93600000000000 old = .ok final ∧ Mixed old final m ∧
    TIME_TO_STRING_EXT 93600000000000 m ≠ .ok final := by
  refine ⟨List.replicate 100 0, [49, 100, 50, 104] ++ List.replicate 96 0, [49, 100, 50] ++ List.replicate 97 0, by decide +kernel, ⟨rfl, ?_⟩, by decide +kernel⟩
  intro i
  rcases i with _ | _ | _ | _ | i
  · exact .inr rfl
  · exact .inr rfl
  · exact .inr rfl
  · exact .inl rfl
  · exact .inl (by simp)

/-! ### Calls that panic -/

private def Silent (x : Traced Dest) : Prop := x.result = .panic → x.stores = []

private theorem silent_quiet {α : Type} {r : Res α} {f : α → Traced Dest} (hf : ∀ a, Silent (f a)) : Silent (Traced.quiet r >>= f) := by
  cases r with
  | ok a => exact hf a
  | panic => exact fun _ => rfl
  | ub => exact fun _ => rfl

private theorem silent_panic : Silent (.quiet .panic) := fun _ => rfl

private theorem silent_ite {c : Prop} [Decidable c] {x y : Traced Dest} (h : Silent x) (h' : Silent y) : Silent (if c then x else y) := by
  split
  · exact h
  · exact h'

private theorem store_panic {r : Res Dest} (h : r ≠ .panic) {f : Dest → Traced Dest} (hf : ∀ d, (f d).result ≠ .panic) : (Traced.store r >>= f).result ≠ .panic := by
  rw [bind_result, store_result]
  cases r with
  | ok d => exact hf d
  | panic => exact absurd rfl h
  | ub => exact fun h => nomatch h

private theorem put_no_panic (d : Dest) (u : Nat) : d.put u ≠ .panic := by unfold Dest.put; split <;> exact fun h => nomatch h

private theorem terminate_no_panic (d : Dest) : d.terminate ≠ .panic := by unfold Dest.terminate; split <;> exact fun h => nomatch h

private theorem puts_no_panic : ∀ (us : List Nat) (d : Dest), (putStores us d).result ≠ .panic
  | [], _ => fun h => nomatch h
  | u :: us, d => by
    rw [putStores]
    exact store_panic (put_no_panic d u) fun e => puts_no_panic us e

private theorem items_no_panic {k : Codec} (hk : ∀ c, ∃ us, k.units c = .ok us) : ∀ (items : List k.Item) (d : Dest), (k.itemsStores items d).result ≠ .panic
  | [], _ => fun h => nomatch h
  | c :: items, d => by
    obtain ⟨us, hus⟩ := hk c
    rw [Codec.itemsStores, bind_result, quiet_result, hus, Res.bind_ok, bind_result]
    intro h
    cases hr : (putStores us d).result with
    | ok e => rw [hr] at h; exact items_no_panic hk items e h
    | panic => exact puts_no_panic us d hr
    | ub => rw [hr] at h; cases h

private theorem silent_write' {k : Codec} (hk : ∀ c, ∃ us, k.units c = .ok us) (items : List k.Item) (old : List Nat) : Silent (k.writeStores items (some old)) := by
  intro h
  exfalso
  have h : (k.encodeStores items ⟨[], old⟩).result = .panic := by
    rw [Codec.writeStores, bind_result] at h; exact h
  rw [Codec.encodeStores, bind_result] at h
  cases hr : (k.itemsStores items ⟨[], old⟩).result with
  | ok e =>
    rw [hr] at h
    have h : (Traced.store e.terminate).result = .panic := h
    rw [store_result] at h
    exact terminate_no_panic e h
  | panic => exact items_no_panic hk items _ hr
  | ub => rw [hr] at h; cases h

private theorem silent_write (items : List codec8.Item) (old : List Nat) : Silent (codec8.writeStores items (some old)) :=
  silent_write' (fun c => ⟨encode_utf8 c, rfl⟩) items old

/-- **C158**, a call for STRING that panics, other than CONCAT, has stored nothing. -/
theorem C158_panic_partial (p : Profile) (call : StringCall) (hc : ∀ argc argv, call ≠ .concat argc argv) (old : List Nat)
    (h : call.run p .STRING (some old) = .panic) : call.moments p .STRING old = [old] := by
  have hr : (call.traced p .STRING (some old)).result = .panic := by
    rw [← C158_same_call] at h
    cases hr : (call.traced p .STRING (some old)).result with
    | ok d => rw [hr] at h; cases h
    | panic => rfl
    | ub => rw [hr] at h; cases h
  suffices hs : Silent (call.traced p .STRING (some old)) by rw [StringCall.moments, hs hr]; rfl
  cases call with
  | left src L => exact silent_ite silent_panic (silent_quiet fun _ => silent_ite silent_panic (silent_write _ _))
  | right src L => exact silent_ite silent_panic (silent_quiet fun _ => silent_ite silent_panic (silent_write _ _))
  | mid src L P =>
    exact silent_ite silent_panic (silent_quiet fun _ => silent_ite silent_panic (silent_quiet fun _ => silent_ite silent_panic (silent_write _ _)))
  | insert a b P => exact silent_quiet fun _ => silent_ite silent_panic (silent_quiet fun _ => silent_write _ _)
  | delete src L P => exact silent_quiet fun _ => silent_ite silent_panic (silent_quiet fun _ => silent_ite silent_panic (silent_write _ _))
  | replace a b L P =>
    exact silent_quiet fun _ => silent_ite silent_panic (silent_quiet fun _ => silent_ite silent_panic (silent_quiet fun _ => silent_write _ _))
  | concat argc argv => exact absurd rfl (hc argc argv)
  | convert src => exact silent_quiet fun _ => silent_write _ _

/-- A WSTRING call may store characters before it panics (at the first surrogate that is not paired), and so may CONCAT for STRING (at the first
argument that is not well-formed). -/
theorem C158_panic_refuted (p : Profile) :
    ((StringCall.left (some [97, 0xD800, 0]) 2).run p .WSTRING (some [0, 0, 0]) = .panic ∧
      [97, 0, 0] ∈ (StringCall.left (some [97, 0xD800, 0]) 2).moments p .WSTRING [0, 0, 0]) ∧
    ((StringCall.concat 2 (some [some [97, 0], some [0xFF, 0]])).run p .STRING (some [0, 0, 0]) = .panic ∧
      [97, 0, 0] ∈ (StringCall.concat 2 (some [some [97, 0], some [0xFF, 0]])).moments p .STRING [0, 0, 0]) := by
  cases p <;> decide

/-- **C158**, calls that do not return included: no moment of a call changes the number of units of the variable. -/
theorem C158_length (p : Profile) (ty : StrTy) (call : StringCall) (old m : List Nat) (hm : m ∈ call.moments p ty old) : m.length = old.length := by
  obtain ⟨e, rfl, ⟨vs, k1, k2, k3⟩, -⟩ := moment_of hm
  dsimp only at k1 k2 k3
  rw [List.nil_append] at k1
  unfold Dest.mem
  rcases k3 with k3 | ⟨k3, k4⟩
  · rw [k1, k3]; simp; omega
  · rw [k1, k4]; simp; omega

/-! ### The hypotheses are met -/

/-- The moments of INSERT of 'X' after the first character of 'ab', written over '12345'. -/
example : (StringCall.insert (some [97, 98, 0]) (some [88, 0]) 1).moments .release .STRING [49, 50, 51, 52, 53, 0] =
    [[49, 50, 51, 52, 53, 0], [97, 50, 51, 52, 53, 0], [97, 88, 51, 52, 53, 0], [97, 88, 98, 52, 53, 0], [97, 88, 98, 0, 53, 0]] := by decide

/-- CONCAT of 'ab' and 'c': the terminator behind 'ab' is seen for a moment. -/
example : (StringCall.concat 2 (some [some [97, 98, 0], some [99, 0]])).moments .release .WSTRING [49, 50, 51, 52, 0] =
    [[49, 50, 51, 52, 0], [97, 50, 51, 52, 0], [97, 98, 51, 52, 0], [97, 98, 0, 52, 0], [97, 98, 99, 52, 0], [97, 98, 99, 0, 0]] := by decide

/-- C158_moments, C158_terminated_partial and C158_again: MID of 'abcd' over '12345', cut off after the first store, and made again. -/
example : (StringCall.mid (some [97, 98, 99, 100, 0]) 2 2).run .release .STRING (some [49, 50, 51, 52, 53, 0]) = .ok [98, 99, 0, 52, 53, 0] ∧
    [98, 50, 51, 52, 53, 0] ∈ (StringCall.mid (some [97, 98, 99, 100, 0]) 2 2).moments .release .STRING [49, 50, 51, 52, 53, 0] ∧
    (StringCall.mid (some [97, 98, 99, 100, 0]) 2 2).run .release .STRING (some [98, 50, 51, 52, 53, 0]) = .ok [98, 99, 0, 52, 53, 0] := by decide

/-- C158_reads_partial: DELETE in 'abc' over '12' with zeros behind it. -/
example : (StringCall.delete (some [97, 98, 99, 0]) 1 2).run .debug .WSTRING (some ([49, 50] ++ List.replicate 3 0)) = .ok [97, 99, 0, 0, 0] ∧
    [97, 50, 0, 0, 0] ∈ (StringCall.delete (some [97, 98, 99, 0]) 1 2).moments .debug .WSTRING ([49, 50] ++ List.replicate 3 0) := by decide

/-- C158_single_units_partial and C158_fresh_partial: REPLACE in 'abc' over a variable of zeros. -/
example : (StringCall.replace (some [97, 98, 99, 0]) (some [88, 0]) 1 2).run .debug .STRING (some (List.replicate 5 0)) = .ok [97, 88, 99, 0, 0] ∧
    [97, 88, 0, 0, 0] ∈ (StringCall.replace (some [97, 98, 99, 0]) (some [88, 0]) 1 2).moments .debug .STRING (List.replicate 5 0) := by decide

/-- C158_any_order: a mixture that no order of the program passes through (the terminator is there before the text). -/
example : (StringCall.left (some [97, 98, 0]) 2).run .release .STRING (some [49, 50, 51, 0]) = .ok [97, 98, 0, 0] ∧
    Mixed [49, 50, 51, 0] [97, 98, 0, 0] [49, 98, 0, 0] := by
  refine ⟨by decide, rfl, fun i => ?_⟩
  rcases i with _ | _ | _ | i
  · exact .inl rfl
  · exact .inr rfl
  · exact .inr rfl
  · exact .inl rfl

/-- C158_text_any_order: 12 over zeros. -/
example : LINT_TO_STRING_EXT 12 (some (List.replicate 81 0)) = .ok ([49, 50] ++ List.replicate 79 0) := by decide +kernel

/-- C158_panic_partial: RIGHT asked for more characters than there are. -/
example : (StringCall.right (some [97, 98, 0]) 3).run .release .STRING (some [49, 0, 0]) = .panic := by decide

/-- The conversion of 'ab' to WSTRING over '1': it writes no terminator. -/
example : (StringCall.convert (some [97, 98, 0])).moments .release .WSTRING [49, 0, 0] = [[49, 0, 0], [97, 0, 0], [97, 98, 0]] := by decide

end Verif
