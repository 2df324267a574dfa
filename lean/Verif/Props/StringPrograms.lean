import Verif.Props.StStrings
import Verif.Props.Find
import Verif.Props.StringCompare
/-
C111: a program that works on texts does the same with STRING and with WSTRING.

A program is given by its statements and by an arbitrary rule for the control flow, so that IF, WHILE, FOR and CASE over the integer
variables are all covered.  Its variables are of type STRING[2048] (or WSTRING[2048]) and DINT.
-/
namespace Verif
open Spec

/-- A statement.  Variables are numbered; `compute` stands for any computation with the integer variables. -/
inductive TextStmt where
  | left (dst src L : Nat)
  | right (dst src L : Nat)
  | mid (dst src L P : Nat)
  | insert (dst a b P : Nat)
  | delete (dst src L P : Nat)
  | replace (dst a b L P : Nat)
  | concat (dst : Nat) (args : List Nat)
  | len (dst src : Nat)
  | find (dst a b : Nat)
  | equal (dst a b : Nat)
  | compute (dst : Nat) (f : (Nat → Int) → Int)

/-- The statement at each place of the program, and where to go on. -/
structure TextProgram where
  stmt : Nat → TextStmt
  next : Nat → (Nat → Int) → Nat

/-- The variables and the place of the next statement. -/
structure TextState where
  pc : Nat
  str : Nat → List Nat
  int : Nat → Int

/-- Assignment to a variable. -/
def assign {α : Type} (v : Nat → α) (i : Nat) (x : α) : Nat → α := fun j => if j = i then x else v j

/-- One statement, in a program for STRING or for WSTRING. -/
def TextStmt.exec (p : Profile) (ty : StrTy) (s : TextState) : TextStmt → Res TextState
  | .left dst src L => do
    let r ← St.LEFT (codecOf ty) (some (s.str src)) (s.int L)
    pure { s with str := assign s.str dst r }
  | .right dst src L => do
    let r ← St.RIGHT (codecOf ty) (some (s.str src)) (s.int L)
    pure { s with str := assign s.str dst r }
  | .mid dst src L P => do
    let r ← St.MID p (codecOf ty) (some (s.str src)) (s.int L) (s.int P)
    pure { s with str := assign s.str dst r }
  | .insert dst a b P => do
    let r ← St.INSERT (codecOf ty) (some (s.str a)) (some (s.str b)) (s.int P)
    pure { s with str := assign s.str dst r }
  | .delete dst src L P => do
    let r ← St.DELETE p (codecOf ty) (some (s.str src)) (s.int L) (s.int P)
    pure { s with str := assign s.str dst r }
  | .replace dst a b L P => do
    let r ← St.REPLACE p (codecOf ty) (some (s.str a)) (some (s.str b)) (s.int L) (s.int P)
    pure { s with str := assign s.str dst r }
  | .concat dst args => do
    let r ← St.CONCAT (codecOf ty) (args.map fun i => some (s.str i))
    pure { s with str := assign s.str dst r }
  | .len dst src => do
    let n ← Verif.len (codecOf ty) (some (s.str src))
    pure { s with int := assign s.int dst n }
  | .find dst a b => do
    let n ← findOf ty p (some (s.str a)) (some (s.str b))
    pure { s with int := assign s.int dst n }
  | .equal dst a b => do
    let q ← EQ 2 (some [some (s.str a), some (s.str b)])
    pure { s with int := assign s.int dst (if q then 1 else 0) }
  | .compute dst f => pure { s with int := assign s.int dst (IntTy.i32.wrap (f s.int)) }

/-- `n` steps of a program. -/
def TextProgram.run (p : Profile) (ty : StrTy) (prog : TextProgram) : Nat → TextState → Res TextState
  | 0, s => .ok s
  | n + 1, s => do
    let s ← (prog.stmt s.pc).exec p ty s
    prog.run p ty n { s with pc := prog.next s.pc s.int }

/-- A STRING[2048] and a WSTRING[2048] with the same text. -/
def SameContent (m w : List Nat) : Prop := m.length = 2049 ∧ w.length = 2049 ∧ ∃ t, Holds m (utf8 t) ∧ Holds w (utf16 t)

/-- The two programs are at the same place, with the same numbers and the same texts. -/
def SameState (s w : TextState) : Prop :=
  s.pc = w.pc ∧ s.int = w.int ∧ (∀ i, IntTy.i32.InRange (s.int i)) ∧ ∀ i, SameContent (s.str i) (w.str i)

/-- The second result is the same as the first, unless the first is a buffer overrun. -/
def SameOutcome {α β : Type} (R : α → β → Prop) : Res α → Res β → Prop
  | .ok a, .ok b => R a b
  | .panic, .panic => True
  | .ub, _ => True
  | _, _ => False

private theorem resultVar_length : resultVar.length = 2049 := by rw [resultVar, List.length_replicate, STRING_LENGTH]

private theorem resultVar_eq : resultVar = 0 :: List.replicate 2048 0 := rfl

attribute [local irreducible] resultVar store

private theorem store_if (dest s : List Nat) :
    store dest s = if s.length < dest.length then .ok (s ++ 0 :: dest.drop (s.length + 1)) else .ub := by unfold store; rfl

private theorem length_le (t : List Char) : t.length ≤ (utf8 t).length := by
  induction t with
  | nil => exact Nat.le_refl _
  | cons c t ih =>
    rw [utf8_cons, List.length_append, List.length_cons]
    have := utf8Char_length_pos c
    omega

private theorem content {m w : List Nat} (h : SameContent m w) :
    ∃ t, Holds m (StrTy.STRING.units t) ∧ Holds w (StrTy.WSTRING.units t) ∧ t.length < 2 ^ 31 := by
  obtain ⟨h1, _, t, ht, hw⟩ := h
  refine ⟨t, ht, hw, ?_⟩
  obtain ⟨_, tail, e⟩ := ht
  have := length_le t
  rw [e] at h1
  simp only [List.length_append, List.length_cons] at h1
  omega

private theorem same_store {t : List Char} (hz : NoNul t) :
    SameOutcome SameContent (store resultVar (StrTy.STRING.units t)) (store resultVar (StrTy.WSTRING.units t)) := by
  have hr := resultVar_length
  have hle : (StrTy.WSTRING.units t).length ≤ (StrTy.STRING.units t).length := utf16_le_utf8 t
  by_cases h : (StrTy.STRING.units t).length < resultVar.length
  · have e1 : store resultVar (StrTy.STRING.units t) = .ok (StrTy.STRING.units t ++ 0 :: resultVar.drop ((StrTy.STRING.units t).length + 1)) := by
      rw [store_if, if_pos h]
    have e2 : store resultVar (StrTy.WSTRING.units t) = .ok (StrTy.WSTRING.units t ++ 0 :: resultVar.drop ((StrTy.WSTRING.units t).length + 1)) := by
      rw [store_if, if_pos (by omega)]
    rw [e1, e2]
    refine ⟨?_, ?_, t, holds_of_store e1 (units_ne_zero .STRING hz), holds_of_store e2 (units_ne_zero .WSTRING hz)⟩ <;>
      simp only [List.length_append, List.length_cons, List.length_drop] <;> omega
  · have : store resultVar (StrTy.STRING.units t) = .ub := by rw [store_if, if_neg h]
    rw [this]
    exact trivial

private theorem same_ite {c : Prop} [Decidable c] {t : List Char} (hz : NoNul t) {r r' : Res (List Nat)}
    (h : r = if c then store resultVar (StrTy.STRING.units t) else .panic)
    (h' : r' = if c then store resultVar (StrTy.WSTRING.units t) else .panic) : SameOutcome SameContent r r' := by
  rw [h, h']
  by_cases hc : c
  · rw [if_pos hc, if_pos hc]; exact same_store hz
  · rw [if_neg hc, if_neg hc]; exact trivial

private theorem assign_str {s w : TextState} (h : SameState s w) (dst : Nat) {r r' : Res (List Nat)} (hr : SameOutcome SameContent r r') :
    SameOutcome SameState (r >>= fun x => pure { s with str := assign s.str dst x }) (r' >>= fun x => pure { w with str := assign w.str dst x }) := by
  obtain ⟨h1, h2, h3, h4⟩ := h
  cases r with
  | ub => exact trivial
  | panic => cases r' <;> first | exact trivial | exact hr.elim
  | ok m => cases r' with
    | ok w => exact ⟨h1, h2, h3, fun i => by
        by_cases hi : i = dst
        · simp only [assign, hi, if_true]; exact hr
        · simp only [assign, hi, if_false]; exact h4 i⟩
    | panic => exact hr.elim
    | ub => exact hr.elim

private theorem assign_int {s w : TextState} (h : SameState s w) (dst : Nat) {n : Int} (hn : IntTy.i32.InRange n) {r r' : Res Int}
    (hr : r = .ok n) (hr' : r' = .ok n) :
    SameOutcome SameState (r >>= fun x => pure { s with int := assign s.int dst x }) (r' >>= fun x => pure { w with int := assign w.int dst x }) := by
  subst hr hr'
  obtain ⟨h1, h2, h3, h4⟩ := h
  refine ⟨h1, by simp only [h2], fun i => ?_, h4⟩
  by_cases hi : i = dst
  · simp only [assign, hi, if_true]; exact hn
  · simp only [assign, hi, if_false]; exact h3 i

private theorem i32_nat {n : Nat} (h : n < 2 ^ 31) : IntTy.i32.InRange n := by
  simp [IntTy.InRange, IntTy.lo, IntTy.hi, IntTy.i32]; omega

private theorem noNul_sub {a b t : List Char} (ha : NoNul a) (hb : NoNul b) (h : ∀ c ∈ t, c ∈ a ∨ c ∈ b) : NoNul t := by
  intro c hc
  rcases h c hc with h | h
  · exact ha c h
  · exact hb c h

private theorem mem_edit {a b : List Char} {i j : Nat} : ∀ c ∈ a.take i ++ b ++ a.drop j, c ∈ a ∨ c ∈ b := by
  intro c hc
  simp only [List.mem_append] at hc
  rcases hc with (hc | hc) | hc
  · exact .inl (List.mem_of_mem_take hc)
  · exact .inr hc
  · exact .inl (List.mem_of_mem_drop hc)

private theorem same_texts {s w : TextState} (h : SameState s w) (args : List Nat) :
    ∃ ts, ts.length = args.length ∧ HoldTexts .STRING (args.map fun i => some (s.str i)) ts ∧
      HoldTexts .WSTRING (args.map fun i => some (w.str i)) ts ∧ NoNul ts.flatten := by
  induction args with
  | nil => exact ⟨[], rfl, trivial, trivial, fun c hc => by cases hc⟩
  | cons i args ih =>
    obtain ⟨ts, h1, h2, h3, h4⟩ := ih
    obtain ⟨t, ht, hw, _⟩ := content (h.2.2.2 i)
    refine ⟨t :: ts, by simp [h1], ⟨⟨_, rfl, ht⟩, h2⟩, ⟨⟨_, rfl, hw⟩, h3⟩, fun c hc => ?_⟩
    rw [List.flatten_cons, List.mem_append] at hc
    rcases hc with hc | hc
    · exact noNul_of_holds _ ht c hc
    · exact h4 c hc

/-- One statement. -/
private theorem same_step (p : Profile) (st : TextStmt) {s w : TextState} (h : SameState s w) :
    SameOutcome SameState (st.exec p .STRING s) (st.exec p .WSTRING w) := by
  have hint := h.2.1
  cases st with
  | left dst src L =>
    obtain ⟨t, ht, hw, hl⟩ := content (h.2.2.2 src)
    have hL := h.2.2.1 L
    refine assign_str h dst (same_ite (t := t.take (s.int L).toNat) (fun c hc => noNul_of_holds _ ht c (List.mem_of_mem_take hc))
      (C45_left .STRING _ resultVar t _ ht hL) ?_)
    rw [← hint]
    exact C45_left .WSTRING _ resultVar t _ hw hL
  | right dst src L =>
    obtain ⟨t, ht, hw, hl⟩ := content (h.2.2.2 src)
    have hL := h.2.2.1 L
    refine assign_str h dst (same_ite (fun c hc => noNul_of_holds _ ht c (List.mem_of_mem_drop hc))
      (C45_right .STRING _ resultVar t _ ht hL) ?_)
    rw [← hint]
    exact C45_right .WSTRING _ resultVar t _ hw hL
  | mid dst src L P =>
    obtain ⟨t, ht, hw, hl⟩ := content (h.2.2.2 src)
    have hL := h.2.2.1 L
    have hP := h.2.2.1 P
    refine assign_str h dst (same_ite (fun c hc => noNul_of_holds _ ht c (List.mem_of_mem_drop (List.mem_of_mem_take hc)))
      (C45_mid p .STRING _ resultVar t _ _ ht (by omega) hL hP) ?_)
    rw [← hint]
    exact C45_mid p .WSTRING _ resultVar t _ _ hw (by omega) hL hP
  | insert dst a b P =>
    obtain ⟨t, ht, hw, hl⟩ := content (h.2.2.2 a)
    obtain ⟨t', ht', hw', hl'⟩ := content (h.2.2.2 b)
    have hP := h.2.2.1 P
    refine assign_str h dst (same_ite (noNul_sub (noNul_of_holds _ ht) (noNul_of_holds _ ht') mem_edit)
      (C46_insert .STRING _ _ resultVar t t' _ ht ht' hl hP) ?_)
    rw [← hint]
    exact C46_insert .WSTRING _ _ resultVar t t' _ hw hw' hl hP
  | delete dst src L P =>
    obtain ⟨t, ht, hw, hl⟩ := content (h.2.2.2 src)
    have hL := h.2.2.1 L
    have hP := h.2.2.1 P
    have hz : NoNul (t.take (s.int P - 1).toNat ++ t.drop (s.int P - 1 + s.int L).toNat) := fun c hc => by
      rcases List.mem_append.1 hc with hc | hc
      · exact noNul_of_holds _ ht c (List.mem_of_mem_take hc)
      · exact noNul_of_holds _ ht c (List.mem_of_mem_drop hc)
    by_cases h0 : 0 ≤ s.int L
    · refine assign_str h dst (same_ite hz (C46_delete p .STRING _ resultVar t _ _ ht hl hL hP h0) ?_)
      rw [← hint]
      exact C46_delete p .WSTRING _ resultVar t _ _ hw hl hL hP h0
    · refine assign_str h dst (same_ite hz (C47_delete_partial p .STRING _ resultVar t _ _ ht hl hL hP (by omega)) ?_)
      rw [← hint]
      exact C47_delete_partial p .WSTRING _ resultVar t _ _ hw hl hL hP (by omega)
  | replace dst a b L P =>
    obtain ⟨t, ht, hw, hl⟩ := content (h.2.2.2 a)
    obtain ⟨t', ht', hw', hl'⟩ := content (h.2.2.2 b)
    have hL := h.2.2.1 L
    have hP := h.2.2.1 P
    have hz := noNul_sub (noNul_of_holds _ ht) (noNul_of_holds _ ht') (mem_edit (i := (s.int P - 1).toNat) (j := (s.int P - 1 + s.int L).toNat))
    by_cases h0 : 0 ≤ s.int L
    · refine assign_str h dst (same_ite hz (C46_replace p .STRING _ _ resultVar t t' _ _ ht ht' hl hL hP h0) ?_)
      rw [← hint]
      exact C46_replace p .WSTRING _ _ resultVar t t' _ _ hw hw' hl hL hP h0
    · refine assign_str h dst (same_ite hz (C47_replace_partial p .STRING _ _ resultVar t t' _ _ ht ht' hl hL hP (by omega)) ?_)
      rw [← hint]
      exact C47_replace_partial p .WSTRING _ _ resultVar t t' _ _ hw hw' hl hL hP (by omega)
  | concat dst args =>
    refine assign_str h dst ?_
    cases args with
    | nil =>
      have hr := resultVar_length
      have e : ∀ ty, St.CONCAT (codecOf ty) [] = .ok resultVar := fun ty => C48_concat_none _ _ _ _ (by simp)
      show SameOutcome SameContent (St.CONCAT (codecOf .STRING) []) (St.CONCAT (codecOf .WSTRING) [])
      rw [e, e]
      refine ⟨hr, hr, [], ⟨by simp [utf8], List.replicate 2048 0, ?_⟩, ⟨by simp [utf16], List.replicate 2048 0, ?_⟩⟩ <;>
        exact resultVar_eq
    | cons i args =>
      obtain ⟨ts, h1, h2, h3, h4⟩ := same_texts h (i :: args)
      have hne : ts ≠ [] := by rintro rfl; simp at h1
      have e : ∀ ty (v : Nat → List Nat), HoldTexts ty ((i :: args).map fun j => some (v j)) ts →
          St.CONCAT (codecOf ty) ((i :: args).map fun j => some (v j)) = store resultVar (ty.units ts.flatten) := by
        intro ty v hv
        unfold St.CONCAT
        rw [List.length_map, ← h1]
        have := C48_concat ty ts _ [] resultVar hne hv
        rwa [List.append_nil] at this
      rw [e _ _ h2, e _ _ h3]
      exact same_store h4
  | len dst src =>
    obtain ⟨t, ht, hw, hl⟩ := content (h.2.2.2 src)
    exact assign_int h dst (i32_nat hl) (C44_len_string _ t ht hl) (C44_len_wstring_text _ t hw hl)
  | find dst a b =>
    obtain ⟨t, ht, hw, hl⟩ := content (h.2.2.2 a)
    obtain ⟨t', ht', hw', hl'⟩ := content (h.2.2.2 b)
    by_cases hno : t' = [] ∨ ¬ Occurs t t'
    · exact assign_int h dst (by decide) (find_not_found .STRING p _ _ t t' ht ht' hno) (find_not_found .WSTRING p _ _ t t' hw hw' hno)
    · obtain ⟨h1, h2⟩ := not_or.1 hno
      obtain ⟨k, hk⟩ := firstOccurrence_exists (Classical.not_not.1 h2)
      have hkl : k + 1 ≤ t.length := by
        have := hk.1.length_le
        rw [List.length_drop] at this
        have := List.length_pos_iff.2 h1
        omega
      exact assign_int h dst (i32_nat (n := k + 1) (by omega)) (find_found .STRING p _ _ t t' k ht ht' hl h1 hk)
        (find_found .WSTRING p _ _ t t' k hw hw' hl h1 hk)
  | equal dst a b =>
    obtain ⟨t, ht, hw, hl⟩ := content (h.2.2.2 a)
    obtain ⟨t', ht', hw', hl'⟩ := content (h.2.2.2 b)
    have e : ∀ (ty : StrTy) (m m' : List Nat), Holds m (ty.units t) → Holds m' (ty.units t') →
        EQ 2 (some [some m, some m']) = .ok (decide (t = t')) := by
      intro ty m m' hm hm'
      unfold EQ
      rw [compare_two _ hm hm']
      refine congrArg _ (Bool.eq_iff_iff.2 ((isEq_iff _ _).trans ?_))
      rw [decide_eq_true_iff]
      exact ⟨units_injective ty, fun h => by rw [h]⟩
    have key := assign_int h dst (n := if decide (t = t') then 1 else 0) (by split <;> decide) rfl rfl
    simp only [TextStmt.exec]
    rw [e .STRING _ _ ht ht', e .WSTRING _ _ hw hw']
    exact key
  | compute dst f =>
    refine assign_int h dst (n := IntTy.i32.wrap (f s.int)) (IntTy.wrap_inRange _ (by decide) _) (r := .ok _) (r' := .ok (IntTy.i32.wrap (f w.int))) rfl ?_
    rw [hint]

/-- **C111**: started with the same texts and numbers, after any number of steps the WSTRING program is where the STRING program is,
with the same texts and numbers, or has aborted where that one has, unless the STRING program has run past the end of a string
(C95). -/
theorem C111_same_results (p : Profile) (prog : TextProgram) (n : Nat) (s w : TextState) (h : SameState s w) :
    SameOutcome SameState (prog.run p .STRING n s) (prog.run p .WSTRING n w) := by
  induction n generalizing s w with
  | zero => exact h
  | succ n ih =>
    have key := same_step p (prog.stmt s.pc) h
    unfold TextProgram.run
    rw [← h.1]
    revert key
    cases TextStmt.exec p .STRING s (prog.stmt s.pc) with
    | ub => exact fun _ => trivial
    | panic =>
      cases TextStmt.exec p .WSTRING w (prog.stmt s.pc) with
      | panic => exact fun _ => trivial
      | _ => exact fun h => h.elim
    | ok s' =>
      cases TextStmt.exec p .WSTRING w (prog.stmt s.pc) with
      | ok w' =>
        intro h'
        exact ih _ _ ⟨by rw [h'.1, h'.2.1], h'.2.1, h'.2.2.1, h'.2.2.2⟩
      | _ => exact fun h => h.elim

/-- **C111**: converting the variables of a STRING program gives such a start, and converting the variables at the end gives the
texts of the WSTRING program. -/
theorem C111_conversion (m : List Nat) (t : List Char) (hl : m.length = 2049) (h : Holds m (utf8 t)) :
    (∃ w, St.STRING_TO_WSTRING (some m) = .ok w ∧ SameContent m w) ∧
    ∀ w, SameContent m w → ∃ w', St.STRING_TO_WSTRING (some m) = .ok w' ∧ ∀ u, Holds w u ↔ Holds w' u := by
  have h8 : (utf8 t).length ≤ 2048 := by
    obtain ⟨_, tail, e⟩ := h
    rw [e] at hl
    simp only [List.length_append, List.length_cons] at hl
    omega
  obtain ⟨w', e, l, hw'⟩ := C95_string_to_wstring m t h h8
  refine ⟨⟨w', e, hl, l, t, h, hw'⟩, fun w hw => ⟨w', e, fun u => ?_⟩⟩
  obtain ⟨_, _, t', h1, h2⟩ := hw
  obtain rfl := utf8_injective (holds_unique h1 h)
  exact ⟨fun hu => holds_unique h2 hu ▸ hw', fun hu => holds_unique hw' hu ▸ h2⟩

/-- A program that deletes all occurrences of string 1 from string 0:
`WHILE FIND(s0, s1) > 0 DO s0 := DELETE(s0, LEN(s1), FIND(s0, s1)); END_WHILE`. -/
def deleteAll : TextProgram where
  stmt
    | 0 => .find 0 0 1
    | 1 => .len 1 1
    | 2 => .delete 0 0 1 0
    | _ => .compute 2 fun v => v 2
  next
    | 0, v => if v 0 = 0 then 3 else 1
    | 1, _ => 2
    | 2, _ => 0
    | _, _ => 3

/-- Variables 0 and 1 with the units given, all others empty. -/
def startState (a b : List Nat) : TextState :=
  ⟨0, fun i => if i = 0 then a ++ List.replicate (2049 - a.length) 0 else if i = 1 then b ++ List.replicate (2049 - b.length) 0
    else List.replicate 2049 0, fun _ => 0⟩

/-- 'é😀aé😀' and 'é😀': the start meets the hypothesis, and the loop leaves 'a' in both programs. -/
example : SameState (startState (utf8 ['é', '😀', 'a', 'é', '😀']) (utf8 ['é', '😀'])) (startState (utf16 ['é', '😀', 'a', 'é', '😀']) (utf16 ['é', '😀'])) := by
  refine ⟨rfl, rfl, fun _ => (by decide : IntTy.i32.InRange 0), fun i => ?_⟩
  unfold startState
  by_cases h0 : i = 0
  · simp only [h0, if_true]
    refine ⟨by decide +kernel, by decide +kernel, ['é', '😀', 'a', 'é', '😀'], ⟨by decide, List.replicate 2035 0, by decide +kernel⟩,
      ⟨by decide, List.replicate 2041 0, by decide +kernel⟩⟩
  · simp only [h0, if_false]
    by_cases h1 : i = 1
    · simp only [h1, if_true]
      exact ⟨by decide +kernel, by decide +kernel, ['é', '😀'], ⟨by decide, List.replicate 2042 0, by decide +kernel⟩,
        ⟨by decide, List.replicate 2045 0, by decide +kernel⟩⟩
    · simp only [h1, if_false]
      exact ⟨by decide +kernel, by decide +kernel, [], ⟨by simp [utf8], List.replicate 2048 0, by decide +kernel⟩, ⟨by simp [utf16], List.replicate 2048 0, by decide +kernel⟩⟩

example : ((deleteAll.run .debug .STRING 8 (startState (utf8 ['é', '😀', 'a', 'é', '😀']) (utf8 ['é', '😀']))) >>= fun s =>
      pure ((s.str 0).take 2, s.pc)) = .ok ([97, 0], 3) ∧
    ((deleteAll.run .debug .WSTRING 8 (startState (utf16 ['é', '😀', 'a', 'é', '😀']) (utf16 ['é', '😀']))) >>= fun s =>
      pure ((s.str 0).take 2, s.pc)) = .ok ([97, 0], 3) := by
  decide +kernel

/-- Order comparisons are not covered: they differ between the string types (C53). -/
example : LT 2 (some [some (utf8 ['\uE000'] ++ [0]), some (utf8 ['😀'] ++ [0])]) = .ok true ∧
    LT 2 (some [some (utf16 ['\uE000'] ++ [0]), some (utf16 ['😀'] ++ [0])]) = .ok false := by
  decide

end Verif
