import Verif.Props.TimeTextExact
import Verif.Props.FloatText
/-
C147: how much of the memory behind its destination a conversion to text uses.
-/
namespace Verif
open Spec

namespace Spec

/-- A conversion uses only the first `n` bytes of its destination: given these it does not leave them, they decide what it does, and what is
behind them stays as it is. -/
def WithinFirst (n : Nat) (f : List Nat → Res (List Nat)) : Prop :=
  ∀ dest, dest.length = n →
    f dest ≠ .ub ∧ (∀ out, f dest = .ok out → out.length = n) ∧
    ∀ tail, f (dest ++ tail) = match f dest with
      | .ok out => .ok (out ++ tail)
      | .panic => .panic
      | .ub => .ub

end Spec

private theorem writeBuf_within (text : List Nat) : WithinFirst 81 fun dest => writeBuf (some dest) text := by
  intro dest hd
  unfold writeBuf DEFAULT_STRING_LEN
  dsimp only
  rw [if_neg (by omega)]
  refine ⟨by split <;> simp, ?_, ?_⟩
  · intro out ho
    split at ho
    · cases ho
    · rw [← Res.ok.inj ho, List.length_append, List.length_drop]; omega
  · intro tail
    rw [if_neg (by rw [List.length_append]; omega)]
    split
    · rfl
    · rw [List.drop_append_of_le_length (by omega)]
      exact congrArg Res.ok (List.append_assoc ..).symm

private theorem writeBuf_short (text dest : List Nat) (h : dest.length < 81) : writeBuf (some dest) text = .ub := by
  unfold writeBuf DEFAULT_STRING_LEN
  dsimp only
  rw [if_pos h]

/-- **C147**: the conversions of numbers, dates and times of day use the 81 bytes of a STRING of default length, whatever is converted and
whatever the destination contains. -/
theorem C147_within_81 :
    (∀ x, WithinFirst 81 fun dest => BYTE_TO_STRING_EXT x (some dest)) ∧ (∀ x, WithinFirst 81 fun dest => LWORD_TO_STRING_EXT x (some dest)) ∧
    (∀ x, WithinFirst 81 fun dest => LINT_TO_STRING_EXT x (some dest)) ∧ (∀ x, WithinFirst 81 fun dest => LREAL_TO_STRING_EXT x (some dest)) ∧
    (∀ x, WithinFirst 81 fun dest => REAL_TO_STRING_EXT x (some dest)) ∧ (∀ x, WithinFirst 81 fun dest => DATE_TO_STRING_EXT x (some dest)) ∧
    (∀ x, WithinFirst 81 fun dest => TOD_TO_STRING_EXT x (some dest)) ∧ (∀ x, WithinFirst 81 fun dest => DT_TO_STRING_EXT x (some dest)) := by
  refine ⟨fun x => writeBuf_within _, fun x => writeBuf_within _, fun x => writeBuf_within _, fun x => ?_, fun x => ?_,
    fun x => writeBuf_within _, fun x => writeBuf_within _, fun x => writeBuf_within _⟩
  · unfold LREAL_TO_STRING_EXT
    split
    · exact writeBuf_within _
    · exact writeBuf_within _
  · unfold REAL_TO_STRING_EXT
    split
    · exact writeBuf_within _
    · exact writeBuf_within _

/-- They need all of them: a shorter destination, for instance a STRING[10], is left by every call, however short the text is. -/
theorem C147_shorter (dest : List Nat) (h : dest.length < 81) :
    (∀ x, BYTE_TO_STRING_EXT x (some dest) = .ub) ∧ (∀ x, LWORD_TO_STRING_EXT x (some dest) = .ub) ∧
    (∀ x, LINT_TO_STRING_EXT x (some dest) = .ub) ∧ (∀ x, LREAL_TO_STRING_EXT x (some dest) = .ub) ∧
    (∀ x, REAL_TO_STRING_EXT x (some dest) = .ub) ∧ (∀ x, DATE_TO_STRING_EXT x (some dest) = .ub) ∧
    (∀ x, TOD_TO_STRING_EXT x (some dest) = .ub) ∧ (∀ x, DT_TO_STRING_EXT x (some dest) = .ub) := by
  have s := fun text => writeBuf_short text dest h
  refine ⟨fun x => s _, fun x => s _, fun x => s _, fun x => ?_, fun x => ?_, fun x => s _, fun x => s _, fun x => s _⟩
  · unfold LREAL_TO_STRING_EXT
    rw [s, s, ite_self]
  · unfold REAL_TO_STRING_EXT
    rw [s, s, ite_self]

/-- 16#2A into a destination of 81 bytes in front of a 7, and into one of 80. -/
example : BYTE_TO_STRING_EXT 42 (some (List.replicate 81 0 ++ [7])) = .ok (ascii "42" ++ List.replicate 79 0 ++ [7]) ∧
    BYTE_TO_STRING_EXT 42 (some (List.replicate 80 0)) = .ub := by decide +kernel

/-- It is not true of TIME_TO_STRING: for T#1h5s the slice for `5s` begins behind `1h` and has 81 bytes, two more than are left. -/
theorem C147_refuted : ¬ ∀ t, WithinFirst 81 (TIME_TO_STRING_EXT t) := by
  intro h
  exact (h 3605000000000 (List.replicate 81 0) (by decide)).1 (by decide +kernel)

private theorem loop_within (l : List (Nat × List Nat)) (w room : List Nat) (h : 80 * l.length + 1 ≤ room.length) :
    timeLoop l w room ≠ .ub ∧ (∀ out, timeLoop l w room = .ok out → out.length = w.length + room.length) ∧
    ∀ tail, timeLoop l w (room ++ tail) = match timeLoop l w room with
      | .ok out => .ok (out ++ tail)
      | .panic => .panic
      | .ub => .ub := by
  induction l generalizing w room with
  | nil =>
    simp only [timeLoop]
    refine ⟨by simp, ?_, ?_⟩
    · intro out ho; rw [← Res.ok.inj ho, List.length_append]
    · intro tail; rw [List.append_assoc]
  | cons it l ih =>
    rw [List.length_cons] at h
    simp only [timeLoop]
    generalize fmtNat it.1 ++ it.2 = text
    by_cases ht : 81 < text.length
    · have e : ∀ tail, writeBuf (some (room ++ tail)) text = .panic := by
        intro tail
        unfold writeBuf DEFAULT_STRING_LEN
        dsimp only
        rw [if_neg (by rw [List.length_append]; omega), if_pos ht]
      have e' := e []
      rw [List.append_nil] at e'
      rw [e']
      refine ⟨fun (x : Res.panic = Res.ub) => absurd x (by simp), fun out (ho : Res.panic = Res.ok out) => absurd ho (by simp), ?_⟩
      intro tail
      rw [e]
      rfl
    have e : ∀ tail, writeBuf (some (room ++ tail)) text = .ok ((text ++ room.drop text.length) ++ tail) := by
      intro tail
      unfold writeBuf DEFAULT_STRING_LEN
      dsimp only
      rw [if_neg (by rw [List.length_append]; omega), if_neg ht, List.drop_append_of_le_length (by omega), List.append_assoc]
    have e' := e []
    rw [List.append_nil, List.append_nil] at e'
    rw [e', Res.bind_ok]
    have hm : (text ++ room.drop text.length).length = room.length := by rw [List.length_append, List.length_drop]; omega
    simp only [e, Res.bind_ok]
    generalize text ++ room.drop text.length = m at hm
    have htake : ∀ tail, (m ++ tail).take DEFAULT_STRING_LEN = m.take DEFAULT_STRING_LEN :=
      fun tail => List.take_append_of_le_length (by unfold DEFAULT_STRING_LEN; omega)
    simp only [htake]
    cases hf : (m.take DEFAULT_STRING_LEN).findIdx? (· == 0) with
    | none =>
      exact ⟨fun (x : Res.panic = Res.ub) => absurd x (by simp), fun out (ho : Res.panic = Res.ok out) => absurd ho (by simp), fun tail => rfl⟩
    | some idx =>
      have hi : idx ≤ 80 := by
        have := (List.findIdx?_eq_some_iff_getElem.1 hf).1
        rw [List.length_take] at this
        unfold DEFAULT_STRING_LEN at this
        omega
      simp only [Res.unwrap_some, Res.bind_ok]
      obtain ⟨a, b, c⟩ := ih (w ++ m.take idx) (m.drop idx) (by rw [List.length_drop]; omega)
      refine ⟨a, ?_, ?_⟩
      · intro out ho
        rw [b out ho, List.length_append, List.length_take, List.length_drop]; omega
      · intro tail
        rw [List.take_append_of_le_length (by omega), List.drop_append_of_le_length (by omega)]
        exact c tail

/-- What is true of TIME_TO_STRING: 561 bytes are enough for every duration and every earlier content (the results of the Structured Text
functions have 2049). -/
theorem C147_time_partial (t : Int) : WithinFirst 561 (TIME_TO_STRING_EXT t) := by
  intro dest hd
  have hl : ((parse_timestamp t).filter fun it => it.1 != 0).length ≤ 7 := List.length_filter_le ..
  obtain ⟨a, b, c⟩ := loop_within ((parse_timestamp t).filter fun it => it.1 != 0) [] dest (by omega)
  refine ⟨a, ?_, c⟩
  intro out ho
  rw [b out ho, hd]; rfl

/-- 560 are not: seven components, and the earlier content has its zeros 80 bytes apart. -/
example :
    let content := 65 :: (List.replicate 7 (List.replicate 79 65 ++ [0])).flatten
    content.length = 561 ∧ TIME_TO_STRING_EXT 90061001001001 content ≠ .ub ∧ TIME_TO_STRING_EXT 90061001001001 (content.take 560) = .ub := by
  decide +kernel

private theorem loop_zero_ub (l : List (Nat × List Nat)) (hl : ∀ it ∈ l, IsUnit it.2) (w : List Nat) (n : Nat) (hk : (tokText l).length < 81) :
    timeLoop l w (List.replicate n 0) = .ub ↔
      l ≠ [] ∧ n < 81 + ((l.map fun it => decimal it.1 ++ it.2).dropLast.flatten).length := by
  induction l generalizing w n with
  | nil => simp [timeLoop]
  | cons it l ih =>
    rw [tok_cons, List.length_append] at hk
    rw [timeLoop, fmtNat_eq]
    have hp := piece_ne_zero (hl it (by simp))
    rw [List.map_cons]
    generalize decimal it.1 ++ it.2 = text at *
    by_cases hn : n < 81
    · rw [writeBuf_short _ _ (by rw [List.length_replicate]; exact hn)]
      simp only [ne_eq, List.cons_ne_nil, not_false_eq_true, true_and]
      exact ⟨fun _ => by omega, fun _ => rfl⟩
    have hw : writeBuf (some (List.replicate n 0)) text = .ok (text ++ 0 :: List.replicate (n - text.length - 1) 0) := by
      unfold writeBuf DEFAULT_STRING_LEN
      dsimp only
      rw [if_neg (by rw [List.length_replicate]; omega), if_neg (by omega), List.drop_replicate, ← List.replicate_succ,
        show n - text.length - 1 + 1 = n - text.length by omega]
    rw [hw, Res.bind_ok, show DEFAULT_STRING_LEN = 81 from rfl, findIdx_zero hp _ (by omega), Res.unwrap_some, Res.bind_ok, List.take_left,
      List.drop_left, ← List.replicate_succ, show n - text.length - 1 + 1 = n - text.length by omega,
      ih (fun it hit => hl it (by simp [hit])) _ _ (by omega)]
    cases l with
    | nil => simp; omega
    | cons it' l =>
      simp only [ne_eq, List.cons_ne_nil, not_false_eq_true, true_and, List.map_cons, List.dropLast_cons_cons, List.flatten_cons, List.length_append]
      omega

/-- Into zeroed memory: 81 bytes from the beginning of the last component on.  (`c` as in C56_time_exact_partial.) -/
theorem C147_time_zero_partial (t : Int) (c : Dhms) (h : ∃ mem, TIME_TO_STRING_EXT t (List.replicate 117 0) = .ok mem ∧ Holds mem c.text) (n : Nat) :
    TIME_TO_STRING_EXT t (List.replicate n 0) = .ub ↔ c.pieces ≠ [] ∧ n < 81 + c.pieces.dropLast.flatten.length := by
  have hp := pieces_of h
  have hlen : (tokText ((parts c).filter fun it => it.1 != 0)).length ≤ 36 := by
    rw [hp, parse_timestamp_eq, ← text_eq]; exact partsOf_length t
  unfold TIME_TO_STRING_EXT
  rw [← hp, loop_zero_ub _ (fun it hit => parts_unit c it (List.mem_filter.1 hit).1) [] n (by omega), pieces_eq]
  simp

/-- T#1h5s needs 83 bytes. -/
example : TIME_TO_STRING_EXT 3605000000000 (List.replicate 82 0) = .ub ∧
    TIME_TO_STRING_EXT 3605000000000 (List.replicate 83 0) = .ok (ascii "1h5s" ++ List.replicate 79 0) := by decide +kernel

end Verif
