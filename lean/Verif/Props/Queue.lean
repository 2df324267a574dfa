import Verif.Props.Substitute
/-
C172: a queue of characters and a log of the last characters, kept in string variables.
-/
namespace Verif
namespace Spec

/-- What is done to the queue: a text is put at its end, or (`none`) its first character is taken away. -/
abbrev QueueOp := Option (List Char)

/-- A queue that holds at most `N` characters: a text that does not fit is not put into it, nothing is taken from an empty queue.
Both its contents and what has been taken from it so far. -/
def queueStep (N : Nat) (q : List Char × List Char) : QueueOp → List Char × List Char
  | some t => if q.1.length + t.length ≤ N then (q.1 ++ t, q.2) else q
  | none => match q.1 with
    | [] => q
    | c :: r => (r, q.2 ++ [c])

/-- The largest number of characters that always fit into a string variable of 2048 units. -/
def StrTy.safe : StrTy → Nat
  | .STRING => 512
  | .WSTRING => 1024

end Spec
open Spec

/-- One operation of the program; `s` is the queue, `out` are the texts taken from it so far.
```
IF put THEN IF LEN(s) + LEN(m) <= N THEN s := CONCAT(s, m); END_IF
ELSE IF LEN(s) > 0 THEN c := LEFT(s, 1); s := DELETE(s, 1, 1); END_IF
```
`LEN`, `CONCAT`, `LEFT` and `DELETE` are src/string_functions.rs and iec61131-st/string_functions.st. -/
def queueOp (p : Profile) (ty : StrTy) (N : Int) (s : List Nat × List (List Nat)) : Option (List Nat) → Res (List Nat × List (List Nat))
  | some m => do
    let a ← len (codecOf ty) (some s.1)
    let b ← len (codecOf ty) (some m)
    if a + b ≤ N then
      let r ← St.CONCAT (codecOf ty) [some s.1, some m]
      pure (r, s.2)
    else pure s
  | none => do
    let a ← len (codecOf ty) (some s.1)
    if a > 0 then
      let c ← St.LEFT (codecOf ty) (some s.1) 1
      let r ← St.DELETE p (codecOf ty) (some s.1) 1 1
      pure (r, s.2 ++ [c])
    else pure s

/-- The program: one operation after the other. -/
def queueRun (p : Profile) (ty : StrTy) (N : Int) : List Nat × List (List Nat) → List (Option (List Nat)) → Res (List Nat × List (List Nat))
  | s, [] => .ok s
  | s, o :: ops => do queueRun p ty N (← queueOp p ty N s o) ops

/-- One message: `log := CONCAT(log, m); IF LEN(log) > N THEN log := RIGHT(log, N); END_IF`
(src/string_functions.rs and iec61131-st/string_functions.st). -/
def logOp (ty : StrTy) (N : Int) (s m : List Nat) : Res (List Nat) := do
  let s ← St.CONCAT (codecOf ty) [some s, some m]
  let a ← len (codecOf ty) (some s)
  if a > N then St.RIGHT (codecOf ty) (some s) N else pure s

/-- The messages one after the other. -/
def logRun (ty : StrTy) (N : Int) : List Nat → List (List Nat) → Res (List Nat)
  | s, [] => .ok s
  | s, m :: ms => do logRun ty N (← logOp ty N s m) ms

/-- The memory `m` of an operation holds its text. -/
def OpHolds (ty : StrTy) : Option (List Nat) → QueueOp → Prop
  | some m, some t => Holds m (ty.units t)
  | none, none => True
  | _, _ => False

private theorem char_units (ty : StrTy) (c : Char) : (ty.units [c]).length * ty.safe ≤ 2048 := by
  cases ty
  · have : (utf8Char c).length ≤ 4 := by unfold utf8Char; dsimp only; split <;> [skip; split <;> [skip; split]] <;> simp
    have e : (StrTy.STRING.units [c]).length = (utf8Char c).length := by simp [StrTy.units, utf8]
    rw [e, StrTy.safe]; omega
  · have : (utf16Char c).length ≤ 2 := by unfold utf16Char; dsimp only; split <;> simp
    have e : (StrTy.WSTRING.units [c]).length = (utf16Char c).length := by simp [StrTy.units, utf16]
    rw [e, StrTy.safe]; omega

private theorem units_le (ty : StrTy) (t : List Char) (h : t.length ≤ ty.safe) : (ty.units t).length ≤ 2048 := by
  have key : ∀ t : List Char, (ty.units t).length * ty.safe ≤ 2048 * t.length := by
    intro t
    induction t with
    | nil => cases ty <;> simp [StrTy.units, utf8, utf16]
    | cons c t ih =>
      have := char_units ty c
      rw [show c :: t = [c] ++ t from rfl, units_append, List.length_append, Nat.add_mul]
      simp only [List.length_append, List.length_singleton]; omega
  have := key t
  have pos : 0 < ty.safe := by cases ty <;> simp [StrTy.safe]
  refine Nat.le_of_mul_le_mul_right (Nat.le_trans this (Nat.mul_le_mul_left 2048 h)) pos

private theorem op_spec (p : Profile) (ty : StrTy) (N : Nat) (hN : N ≤ ty.safe) (s : List Nat) (outs : List (List Nat)) (q out : List Char)
    (hs : Holds s (ty.units q)) (hq : q.length ≤ N) (ho : List.Forall₂ (fun m c => Holds m (ty.units [c])) outs out)
    (m : Option (List Nat)) (o : QueueOp) (hm : OpHolds ty m o) (hl : ∀ t, o = some t → t.length ≤ 2048) :
    ∃ s' outs', queueOp p ty N (s, outs) m = .ok (s', outs') ∧ Holds s' (ty.units (queueStep N (q, out) o).1) ∧
      (queueStep N (q, out) o).1.length ≤ N ∧ List.Forall₂ (fun m c => Holds m (ty.units [c])) outs' (queueStep N (q, out) o).2 := by
  have hsafe : ty.safe ≤ 1024 := by cases ty <;> simp [StrTy.safe]
  match m, o, hm with
  | some m, some t, hm =>
    have hm : Holds m (ty.units t) := hm
    unfold queueOp queueStep
    dsimp only
    rw [len_text ty _ _ hs (by omega), Res.bind_ok, len_text ty _ _ hm (by have := hl t rfl; omega), Res.bind_ok]
    by_cases h : q.length + t.length ≤ N
    · rw [if_pos (by omega), if_pos h]
      obtain ⟨r, e, -, hr⟩ := (C95_concat_partial ty [q, t] [some s, some m] (by simp) ⟨⟨_, rfl, hs⟩, ⟨_, rfl, hm⟩, trivial⟩).1
        (by rw [show [q, t].flatten = q ++ t by simp]; exact units_le ty _ (by rw [List.length_append]; omega))
      rw [show [q, t].flatten = q ++ t by simp] at hr
      rw [e, Res.bind_ok]
      exact ⟨_, _, rfl, hr, by rw [List.length_append]; exact h, ho⟩
    · rw [if_neg (by omega), if_neg h]
      exact ⟨_, _, rfl, hs, hq, ho⟩
  | none, none, _ =>
    unfold queueOp queueStep
    dsimp only
    rw [len_text ty _ _ hs (by omega), Res.bind_ok]
    cases q with
    | nil => rw [if_neg (by simp)]; exact ⟨_, _, rfl, hs, hq, ho⟩
    | cons c r =>
      rw [if_pos (by simp only [List.length_cons]; omega)]
      have sel := C95_select p ty s (c :: r) 1 1 hs (units_le ty _ (by omega)) (by omega) (by omega) (by omega)
        (by simp only [List.length_cons]; omega) (by simp only [List.length_cons]; omega)
      obtain ⟨mc, e1, -, h1⟩ := sel.1
      obtain ⟨md, e2, -, h2⟩ := sel.2.2.2
      rw [e1, Res.bind_ok, e2, Res.bind_ok]
      refine ⟨_, _, rfl, ?_, ?_, ?_⟩
      · simpa using h2
      · simp only [List.length_cons] at hq; dsimp only; omega
      · exact List.rel_append (R := fun m c => Holds m (ty.units [c])) ho (.cons (by simpa using h1) .nil)

private theorem run_spec (p : Profile) (ty : StrTy) (N : Nat) (hN : N ≤ ty.safe) (ms : List (Option (List Nat))) (ops : List QueueOp)
    (hm : List.Forall₂ (OpHolds ty) ms ops) (hl : ∀ t, some t ∈ ops → t.length ≤ 2048) :
    ∀ (s : List Nat) (outs : List (List Nat)) (q : List Char × List Char), Holds s (ty.units q.1) → q.1.length ≤ N →
      List.Forall₂ (fun m c => Holds m (ty.units [c])) outs q.2 →
      ∃ s' outs', queueRun p ty N (s, outs) ms = .ok (s', outs') ∧ Holds s' (ty.units (ops.foldl (queueStep N) q).1) ∧
        (ops.foldl (queueStep N) q).1.length ≤ N ∧
        List.Forall₂ (fun m c => Holds m (ty.units [c])) outs' (ops.foldl (queueStep N) q).2 := by
  induction hm with
  | nil => intro s outs q h1 h2 h3; exact ⟨s, outs, rfl, h1, h2, h3⟩
  | cons hm _ ih =>
    intro s outs q h1 h2 h3
    obtain ⟨s', outs', e, k1, k2, k3⟩ := op_spec p ty N hN s outs q.1 q.2 h1 h2 h3 _ _ hm fun t ht => hl t (by simp [ht])
    rw [queueRun, e, Res.bind_ok]
    exact ih (fun t ht => hl t (by simp [ht])) s' outs' _ k1 k2 k3

/-- **C172.** With room for at most 512 characters in a STRING, or 1024 in a WSTRING, the program never aborts and is a bounded queue, for any
sequence of operations: the string holds exactly what the queue holds, and the characters are taken from it in this order. -/
theorem C172_queue (p : Profile) (ty : StrTy) (N : Nat) (hN : N ≤ ty.safe) (s : List Nat) (hs : Holds s []) (ms : List (Option (List Nat)))
    (ops : List QueueOp) (hm : List.Forall₂ (OpHolds ty) ms ops) (hl : ∀ t, some t ∈ ops → t.length ≤ 2048) :
    ∃ s' outs, queueRun p ty N (s, []) ms = .ok (s', outs) ∧ Holds s' (ty.units (ops.foldl (queueStep N) ([], [])).1) ∧
      (ops.foldl (queueStep N) ([], [])).1.length ≤ N ∧
      List.Forall₂ (fun m c => Holds m (ty.units [c])) outs (ops.foldl (queueStep N) ([], [])).2 :=
  run_spec p ty N hN ms ops hm hl s [] ([], []) (by cases ty <;> exact hs) (by simp) .nil

private theorem fifo (N : Nat) (ops : List QueueOp) : ∀ q : List Char × List Char,
    ∃ l, l.Sublist (ops.filterMap id) ∧ (ops.foldl (queueStep N) q).2 ++ (ops.foldl (queueStep N) q).1 = q.2 ++ q.1 ++ l.flatten ∧
      (q.1.length + (ops.filterMap id).flatten.length ≤ N → l = ops.filterMap id) := by
  induction ops with
  | nil => intro q; exact ⟨[], .slnil, by simp, fun _ => rfl⟩
  | cons o ops ih =>
    intro q
    rw [List.foldl_cons]
    obtain ⟨l, h1, h2, h3⟩ := ih (queueStep N q o)
    cases o with
    | some t =>
      by_cases h : q.1.length + t.length ≤ N
      · have e : queueStep N q (some t) = (q.1 ++ t, q.2) := if_pos h
        rw [e] at h2 h3 ⊢
        refine ⟨t :: l, by simpa using h1, by rw [h2]; simp, fun hn => ?_⟩
        have : l = ops.filterMap id := h3 (by simp at hn ⊢; omega)
        simp [this]
      · have e : queueStep N q (some t) = q := if_neg h
        rw [e] at h2 h3 ⊢
        exact ⟨l, by simpa using h1.cons t, h2, fun hn => absurd hn (by simp; omega)⟩
    | none =>
      obtain ⟨a, b⟩ := q
      cases a with
      | nil => exact ⟨l, h1, h2, h3⟩
      | cons c r =>
        have e : queueStep N (c :: r, b) none = (r, b ++ [c]) := rfl
        rw [e] at h2 h3 ⊢
        exact ⟨l, h1, by rw [h2]; simp, fun hn => h3 (by simp at hn ⊢; omega)⟩

/-- **C172.** First in, first out: what has been taken from the queue, followed by what it still holds, are some of the texts in the order in which they
were put; nothing is lost, doubled or exchanged within them.  They are all the texts if together they are not longer than `N`. -/
theorem C172_fifo (p : Profile) (ty : StrTy) (N : Nat) (hN : N ≤ ty.safe) (s : List Nat) (hs : Holds s []) (ms : List (Option (List Nat)))
    (ops : List QueueOp) (hm : List.Forall₂ (OpHolds ty) ms ops) (hl : ∀ t, some t ∈ ops → t.length ≤ 2048) :
    ∃ s' outs, queueRun p ty N (s, []) ms = .ok (s', outs) ∧ ∃ (held taken : List Char) (put : List (List Char)), Holds s' (ty.units held) ∧
      List.Forall₂ (fun m c => Holds m (ty.units [c])) outs taken ∧ put.Sublist (ops.filterMap id) ∧ taken ++ held = put.flatten ∧
      ((ops.filterMap id).flatten.length ≤ N → put = ops.filterMap id) := by
  obtain ⟨s', outs, e, h1, -, h2⟩ := C172_queue p ty N hN s hs ms ops hm hl
  obtain ⟨l, a, b, c⟩ := fifo N ops ([], [])
  exact ⟨s', outs, e, _, _, l, h1, h2, a, by simpa using b, by simpa using c⟩

private theorem log_step (ty : StrTy) (N : Nat) (s m : List Nat) (q t : List Char) (hs : Holds s (ty.units q)) (hm : Holds m (ty.units t))
    (hq : q.length ≤ N) (ht : N + t.length ≤ ty.safe) :
    ∃ s', logOp ty N s m = .ok s' ∧ Holds s' (ty.units ((q ++ t).drop ((q ++ t).length - N))) := by
  have hsafe : ty.safe ≤ 1024 := by cases ty <;> simp [StrTy.safe]
  have hlen : (q ++ t).length = q.length + t.length := List.length_append
  have hu := units_le ty (q ++ t) (by omega)
  obtain ⟨r, e, -, hr⟩ := (C95_concat_partial ty [q, t] [some s, some m] (by simp) ⟨⟨_, rfl, hs⟩, ⟨_, rfl, hm⟩, trivial⟩).1
    (by rw [show [q, t].flatten = q ++ t by simp]; exact hu)
  rw [show [q, t].flatten = q ++ t by simp] at hr
  unfold logOp
  rw [e, Res.bind_ok, len_text ty _ _ hr (by omega), Res.bind_ok]
  by_cases h : N < (q ++ t).length
  · rw [if_pos (by omega)]
    obtain ⟨m', e', -, h'⟩ := (C95_select .debug ty r (q ++ t) N 1 hr hu (by omega) (by omega) (by omega) (by omega) (by omega)).2.1
    exact ⟨m', e', by simpa using h'⟩
  · rw [if_neg (by omega)]
    exact ⟨r, rfl, by rw [show (q ++ t).length - N = 0 by omega]; exact hr⟩

/-- **C172.** The log always holds the last `N` characters of all the messages together, or all of them if there are fewer, if `N` and a message together
are not more than 512 characters in a STRING, or 1024 in a WSTRING. -/
theorem C172_log (ty : StrTy) (N : Nat) (s : List Nat) (hs : Holds s []) (ms : List (List Nat)) (ts : List (List Char))
    (hm : List.Forall₂ (fun m t => Holds m (ty.units t)) ms ts) (ht : ∀ t ∈ ts, N + t.length ≤ ty.safe) :
    ∃ s', logRun ty N s ms = .ok s' ∧ Holds s' (ty.units (ts.flatten.drop (ts.flatten.length - N))) := by
  have key : ∀ (s : List Nat) (all : List Char), Holds s (ty.units (all.drop (all.length - N))) →
      ∃ s', logRun ty N s ms = .ok s' ∧ Holds s' (ty.units ((all ++ ts.flatten).drop ((all ++ ts.flatten).length - N))) := by
    clear hs s
    induction hm with
    | nil => intro s all h; exact ⟨s, rfl, by simpa using h⟩
    | @cons m t ms ts hm _ ih =>
      intro s all h
      obtain ⟨s', e, h'⟩ := log_step ty N s m _ t h hm (by rw [List.length_drop]; omega) (ht t (by simp))
      have eq : (all.drop (all.length - N) ++ t).drop ((all.drop (all.length - N) ++ t).length - N) = (all ++ t).drop ((all ++ t).length - N) := by
        rw [← List.drop_append_of_le_length (by omega), List.drop_drop]
        congr 1
        simp only [List.length_drop, List.length_append]
        omega
      rw [eq] at h'
      obtain ⟨s'', e', h''⟩ := ih (fun t ht' => ht t (by simp [ht'])) s' (all ++ t) h'
      refine ⟨s'', by rw [logRun, e, Res.bind_ok]; exact e', ?_⟩
      simpa [List.append_assoc] using h''
  have := key s [] (by rw [List.drop_nil]; cases ty <;> exact hs)
  simpa using this

private theorem smileys (n : Nat) : (utf8 (List.replicate n '😀')).length = 4 * n := by
  induction n with
  | zero => rfl
  | succ n ih =>
    rw [List.replicate_succ, utf8_cons, List.length_append, ih, show (utf8Char '😀').length = 4 from by decide]; omega

/-- **C172, the bound is sharp.** With room for 513 characters in a STRING there are two texts, each of which fits into a variable, with which the
program writes behind the end of its variables: LEN counts characters, the variables have room for bytes. -/
theorem C172_bound_sharp (p : Profile) :
    ∃ (ms : List (Option (List Nat))) (ops : List QueueOp), List.Forall₂ (OpHolds .STRING) ms ops ∧
      (∀ t, some t ∈ ops → (StrTy.STRING.units t).length ≤ 2048) ∧ queueRun p .STRING 513 ([0], []) ms = .ub := by
  let t := List.replicate 512 '😀'
  have hz : NoNul t := fun c hc => by rw [List.eq_of_mem_replicate hc]; decide
  have hn : (utf8 t).length = 2048 := by rw [smileys]
  have ht : Holds (utf8 t ++ [0]) (StrTy.STRING.units t) := ⟨units_ne_zero .STRING hz, [], rfl⟩
  have hx : Holds [0x61, 0] (StrTy.STRING.units ['a']) := ⟨by decide, [], by decide⟩
  have h0 : Holds [0] (StrTy.STRING.units []) := ⟨by decide, [], by decide⟩
  have hl : t.length = 512 := List.length_replicate
  refine ⟨[some (utf8 t ++ [0]), some [0x61, 0]], [some t, some ['a']], .cons ht (.cons hx .nil), ?_, ?_⟩
  · intro u hu
    simp only [List.mem_cons, Option.some.injEq, List.not_mem_nil, or_false] at hu
    rcases hu with rfl | rfl
    · exact hn.le
    · decide
  · obtain ⟨r, e, -, hr⟩ := (C95_concat_partial .STRING [[], t] [some [0], some (utf8 t ++ [0])] (by simp)
      ⟨⟨_, rfl, h0⟩, ⟨_, rfl, ht⟩, trivial⟩).1 (by rw [show [[], t].flatten = t by simp]; exact hn.le)
    rw [show [[], t].flatten = t by simp] at hr
    have e2 := (C95_concat_partial .STRING [t, ['a']] [some r, some [0x61, 0]] (by simp)
      ⟨⟨_, rfl, hr⟩, ⟨_, rfl, hx⟩, trivial⟩).2 (by
        rw [show [t, ['a']].flatten = t ++ ['a'] by simp, units_append, List.length_append]
        have : (StrTy.STRING.units t).length = 2048 := hn
        have : (StrTy.STRING.units ['a']).length = 1 := by decide
        omega)
    rw [queueRun, queueOp]
    dsimp only
    rw [len_text .STRING _ _ h0 (by simp), Res.bind_ok, len_text .STRING _ _ ht (by omega), Res.bind_ok,
      if_pos (by rw [hl]; decide), e, Res.bind_ok, Res.pure_eq, Res.bind_ok, queueRun, queueOp]
    dsimp only
    rw [len_text .STRING _ _ hr (by omega), Res.bind_ok, len_text .STRING _ _ hx (by simp), Res.bind_ok,
      if_pos (by rw [hl]; decide), e2]
    rfl

/-! ### Examples -/

/-- 'ab' and 'é' are put into a queue for 3 characters, 'c' does not fit, two characters are taken, 'c' is put. -/
example : [some ['a', 'b'], some ['é'], some ['c'], none, none, some ['c']].foldl (queueStep 3) ([], []) = (['é', 'c'], ['a', 'b']) := by decide
example : List.Forall₂ (OpHolds .STRING) [some [0x61, 0x62, 0], some [0xC3, 0xA9, 0], none] [some ['a', 'b'], some ['é'], none] :=
  .cons ⟨by decide, [], by decide⟩ (.cons ⟨by decide, [], by decide⟩ (.cons trivial .nil))
/-- The last 3 characters of 'ab', 'é' and 'cd'. -/
example : ∃ s', logRun .STRING 3 [0] [[0x61, 0x62, 0], [0xC3, 0xA9, 0], [0x63, 0x64, 0]] = .ok s' ∧ Holds s' [0xC3, 0xA9, 0x63, 0x64] :=
  C172_log .STRING 3 [0] ⟨by decide, [], by decide⟩ _ [['a', 'b'], ['é'], ['c', 'd']]
    (.cons ⟨by decide, [], by decide⟩ (.cons ⟨by decide, [], by decide⟩ (.cons ⟨by decide, [], by decide⟩ .nil))) (by decide)

end Verif
