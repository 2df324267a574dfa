import Verif.Props.StringConv
import Verif.Props.FloatText
import Verif.Proofs.TimeText
/-
C128: null pointers as arguments of the functions that take pointers to strings.
-/
namespace Verif
open Spec

namespace Spec

/-- A call does not return a result: it ends the program or its behaviour is undefined. -/
def NoResult {α : Type} (r : Res α) : Prop := r = .panic ∨ r = .ub

/-- Every function with a pointer to a string among its parameters ends the program when it is given a null pointer. -/
def NullIsRejected : Prop :=
  ∀ (p : Profile) (ty : StrTy) (m : Ptr) (L P : Int),
    len (codecOf ty) none = .panic ∧ left (codecOf ty) none L m = .panic ∧ left (codecOf ty) m L none = .panic ∧
    mid p (codecOf ty) none L P m = .panic ∧ FIND__STRING p none m = .panic ∧ NE none m = .panic ∧
    STRING_TO_DINT none = .panic ∧ LINT_TO_STRING_EXT L none = .panic

end Spec

/-- **C128 is false of the code**: LEN, FIND, `<>` and STRING_TO_DINT of a null pointer, and writing a result to a null pointer, are
undefined behaviour, although the helper that determines the length of a string has a case for null. -/
theorem C128_refuted : ¬ NullIsRejected ∧
    len codec8 none = .ub ∧ left codec8 none 0 (some [9]) = .ub ∧ left codec8 (some [0]) 0 none = .ub ∧
    NE none (some [0]) = .ub ∧ LT 2 none = .ub ∧ STRING_TO_DINT none = .ub ∧ LINT_TO_STRING_EXT 7 none = .ub ∧
    WSTRING_TO_STRING_EXT none (some [9]) = .ub := by
  refine ⟨fun h => ?_, by decide, by decide, by decide, by decide, by decide, by decide, by decide, by decide⟩
  have := (h .debug .STRING none 0 0).1
  revert this; decide

private theorem decode_none (k : Codec) : k.decode none = .ub := rfl

private theorem put_none (l : List Nat) : l.foldlM Dest.put ⟨[], []⟩ = if l = [] then .ok ⟨[], []⟩ else .ub := by
  cases l <;> rfl

private theorem fold_none {α : Type} (f : α → Res (List Nat)) (items : List α) :
    items.foldlM (fun d c => f c >>= fun slice => slice.foldlM Dest.put d) ⟨[], []⟩ = .panic ∨
    items.foldlM (fun d c => f c >>= fun slice => slice.foldlM Dest.put d) ⟨[], []⟩ = .ub ∨
    items.foldlM (fun d c => f c >>= fun slice => slice.foldlM Dest.put d) ⟨[], []⟩ = .ok ⟨[], []⟩ := by
  induction items with
  | nil => exact .inr (.inr rfl)
  | cons c l ih =>
    rw [List.foldlM_cons]
    cases f c with
    | panic => exact .inl rfl
    | ub => exact .inr (.inl rfl)
    | ok a =>
      rw [Res.bind_ok, put_none]
      split
      · exact ih
      · exact .inr (.inl rfl)

private theorem write_none (k : Codec) (items : List k.Item) : NoResult (k.write items none) := by
  unfold Codec.write openDest Codec.encode
  rw [Res.bind_ok]
  rcases fold_none k.units items with h | h | h <;> rw [h]
  · exact .inl rfl
  · exact .inr rfl
  · exact .inr rfl

private theorem bind_noResult {α β : Type} (x : Res α) (f : α → Res β) (h : ∀ a, x = .ok a → NoResult (f a)) : NoResult (x >>= f) := by
  cases x with
  | ok a => exact h a rfl
  | panic => exact .inl rfl
  | ub => exact .inr rfl

private theorem ite_noResult {α : Type} (c : Prop) [Decidable c] (x y : Res α) (hx : NoResult x) (hy : NoResult y) :
    NoResult (if c then x else y) := by
  split
  · exact hx
  · exact hy

/-- **C128**, CONCAT ends the program if the list of strings or the destination is null, whatever else it is given; so do MAX
and MIN (C18). -/
theorem C128_concat (ty : StrTy) (argc : Int) (dest : Ptr) (argv : Option (List Ptr)) :
    concat (codecOf ty) none argc argv = .panic ∧ concat (codecOf ty) dest argc none = .panic := by
  constructor
  · cases argv <;> rfl
  · cases dest <;> rfl

example : concat codec8 none 1 (some [some [0x61, 0]]) = .panic ∧ concat codec8 (some [9, 9]) 1 (some [some [0x61, 0]]) = .ok [0x61, 0] := by
  decide

/-- **C128**, what holds of the other functions: a null pointer is never silently taken for an empty string, no call with one
returns a result. -/
theorem C128_no_result_partial (p : Profile) (ty : StrTy) (m m' : Ptr) (L P : Int) :
    NoResult (len (codecOf ty) none) ∧
    (NoResult (FIND__STRING p none m) ∧ NoResult (FIND__STRING p m none)) ∧
    (NoResult (FIND__WSTRING p none m) ∧ NoResult (FIND__WSTRING p m none)) ∧
    (NoResult (NE none m) ∧ NoResult (NE m none)) ∧
    (NoResult (left (codecOf ty) none L m) ∧ NoResult (left (codecOf ty) m L none)) ∧
    (NoResult (right (codecOf ty) none L m) ∧ NoResult (right (codecOf ty) m L none)) ∧
    (NoResult (mid p (codecOf ty) none L P m) ∧ NoResult (mid p (codecOf ty) m L P none)) ∧
    (NoResult (insert (codecOf ty) none m P m') ∧ NoResult (insert (codecOf ty) m none P m') ∧
      NoResult (insert (codecOf ty) m m' P none)) ∧
    (NoResult (delete p (codecOf ty) none L P m) ∧ NoResult (delete p (codecOf ty) m L P none)) ∧
    (NoResult (replace p (codecOf ty) none m L P m') ∧ NoResult (replace p (codecOf ty) m none L P m') ∧
      NoResult (replace p (codecOf ty) m m' L P none)) ∧
    (NoResult (WSTRING_TO_STRING_EXT none m) ∧ NoResult (WSTRING_TO_STRING_EXT m none)) ∧
    NoResult (STRING_TO_WSTRING_EXT none m) := by
  have W : ∀ items, NoResult ((codecOf ty).write items none) := write_none _
  have D : NoResult ((codecOf ty).decode none) := .inr rfl
  refine ⟨.inr rfl, ⟨.inr rfl, ?_⟩, ⟨.inr rfl, ?_⟩, ⟨.inr rfl, ?_⟩, ⟨?_, ?_⟩, ⟨?_, ?_⟩, ⟨?_, ?_⟩, ⟨.inr rfl, ?_, ?_⟩, ⟨.inr rfl, ?_⟩,
    ⟨.inr rfl, ?_, ?_⟩, ⟨.inr rfl, ?_⟩, .inr rfl⟩
  · exact bind_noResult _ _ fun a _ => .inr rfl
  · exact bind_noResult _ _ fun a _ => .inr rfl
  · exact bind_noResult _ _ fun a _ => .inr rfl
  · exact ite_noResult _ _ _ (.inl rfl) (.inr rfl)
  · exact ite_noResult _ _ _ (.inl rfl) (bind_noResult _ _ fun a _ => ite_noResult _ _ _ (.inl rfl) (W _))
  · exact ite_noResult _ _ _ (.inl rfl) (.inr rfl)
  · exact ite_noResult _ _ _ (.inl rfl) (bind_noResult _ _ fun a _ => ite_noResult _ _ _ (.inl rfl) (W _))
  · exact ite_noResult _ _ _ (.inl rfl) (.inr rfl)
  · exact ite_noResult _ _ _ (.inl rfl) (bind_noResult _ _ fun a _ => ite_noResult _ _ _ (.inl rfl)
      (bind_noResult _ _ fun s _ => ite_noResult _ _ _ (.inl rfl) (W _)))
  · exact bind_noResult _ _ fun a _ => ite_noResult _ _ _ (.inl rfl) (.inr rfl)
  · exact bind_noResult _ _ fun a _ => ite_noResult _ _ _ (.inl rfl) (bind_noResult _ _ fun b _ => W _)
  · exact bind_noResult _ _ fun a _ => ite_noResult _ _ _ (.inl rfl) (bind_noResult _ _ fun s _ => ite_noResult _ _ _ (.inl rfl) (W _))
  · exact bind_noResult _ _ fun a _ => ite_noResult _ _ _ (.inl rfl) (bind_noResult _ _ fun s _ => ite_noResult _ _ _ (.inl rfl) (.inr rfl))
  · exact bind_noResult _ _ fun a _ => ite_noResult _ _ _ (.inl rfl) (bind_noResult _ _ fun s _ => ite_noResult _ _ _ (.inl rfl)
      (bind_noResult _ _ fun b _ => W _))
  · exact bind_noResult _ _ fun a _ => write_none codec8 _

/-- **C128**, the one function that may be given a null destination: STRING_TO_WSTRING writes the characters and no terminator, so
it returns if the string is empty, and only then. -/
theorem C128_empty_partial (mem : List Nat) :
    STRING_TO_WSTRING_EXT (some (0 :: mem)) none = .ok [] ∧
    (mem.head? ≠ some 0 → NoResult (STRING_TO_WSTRING_EXT (some mem) none)) := by
  refine ⟨rfl, fun h => ?_⟩
  unfold STRING_TO_WSTRING_EXT
  refine bind_noResult _ _ fun items hi => ?_
  have hne : items ≠ [] := by
    rintro rfl
    cases mem with
    | nil => cases hi
    | cons u l =>
      have hu : (u == 0) = false := by
        rw [beq_eq_false_iff_ne]; rintro rfl; exact h rfl
      unfold Codec.decode ptr_to_slice get_null_terminated_len at hi
      simp only [nulLen, hu, Bool.false_eq_true, if_false] at hi
      cases hl : nulLen l with
      | none => rw [hl] at hi; cases hi
      | some n =>
        rw [hl] at hi
        change (if from_utf8 (u :: l.take n) then Res.ok (chars (u :: l.take n)) else Res.panic) = _ at hi
        split at hi
        · rename_i hf
          obtain ⟨t, ht⟩ := (from_utf8_iff _).1 hf
          rw [ht, chars_utf8] at hi
          rw [Res.ok.inj hi] at ht
          cases ht
        · cases hi
  cases items with
  | nil => exact absurd rfl hne
  | cons c l =>
    have : (encode_utf16 c).foldlM Dest.put ⟨[], []⟩ = .ub := by
      unfold encode_utf16; dsimp only; split <;> rfl
    show NoResult ((((encode_utf16 c).foldlM Dest.put ⟨[], []⟩ >>= _) : Res Dest) >>= _)
    rw [this]; exact .inr rfl

example : STRING_TO_WSTRING_EXT (some [0]) none = .ok [] ∧ STRING_TO_WSTRING_EXT (some [0x61, 0]) none = .ub ∧
    left codec16 (some [0xD800, 0]) 1 none = .panic ∧ left codec16 (some [0x61, 0]) 1 none = .ub := by decide

/-- **C128**, TIME_TO_STRING with a null destination returns for T#0s, for which it writes nothing, and for no other TIME. -/
theorem C128_time_partial (n : Int) (hn : IntTy.i64.InRange n) :
    (n = 0 → TIME_TO_STRING_EXT_null n = .ok []) ∧ (n ≠ 0 → NoResult (TIME_TO_STRING_EXT_null n)) := by
  refine ⟨by rintro rfl; decide, fun h0 => .inr ?_⟩
  unfold TIME_TO_STRING_EXT_null
  rw [if_neg]
  intro he
  have hall : ∀ it ∈ parse_timestamp n, it.1 = 0 := by
    intro it hi
    by_contra hc
    have : it ∈ (parse_timestamp n).filter fun it => it.1 != 0 := List.mem_filter.2 ⟨hi, by simpa using hc⟩
    rw [List.isEmpty_iff.1 he] at this
    cases this
  rw [parse_timestamp_eq] at hall
  simp only [IntTy.InRange, IntTy.lo, IntTy.hi, IntTy.i64] at hn
  norm_num at hn
  have hd : (partsOf n).d = 0 := hall ((partsOf n).d, [100]) (by simp [parts])
  have hr := partsOf_rest n
  have hz : (partsOf n).nanos = 0 := by
    simp [parts] at hall
    simp [Dhms.nanos, hall]
  rw [hz, hd] at hr
  have ht : n % 86400000000000 = 0 := by
    unfold timeOfDay at hr
    unfold D at hr
    omega
  obtain ⟨q, rfl⟩ := Int.dvd_of_emod_eq_zero ht
  simp only [partsOf, IntTy.wrap, IntTy.u32, D] at hd
  rw [Int.mul_tdiv_cancel_left _ (by decide)] at hd
  norm_num at hd
  omega

example : TIME_TO_STRING_EXT_null 0 = .ok [] ∧ TIME_TO_STRING_EXT_null (-1) = .ub ∧ TIME_TO_STRING_EXT_null 1 = .ub := by
  decide +kernel

/-- **C128**, comparing lists of strings: with fewer than two arguments the program ends, otherwise a null list, or a null pointer as
first or second string, gives no result. -/
theorem C128_compare_partial (argc : Int) (m : Ptr) (argv : List Ptr) :
    (∀ f ∈ [LT, LE, EQ, GE, GT], NoResult (f argc none) ∧ NoResult (f argc (some (none :: argv))) ∧
      NoResult (f argc (some (m :: none :: argv)))) := by
  have key : ∀ pred, NoResult (compare argc none pred) ∧ NoResult (compare argc (some (none :: argv)) pred) ∧
      NoResult (compare argc (some (m :: none :: argv)) pred) := by
    intro pred
    refine ⟨ite_noResult _ _ _ (.inl rfl) (.inr rfl), ite_noResult _ _ _ (.inl rfl) (.inr rfl), ?_⟩
    unfold compare
    by_cases h : argc < 2
    · rw [if_pos h]; exact .inl rfl
    · rw [if_neg h]
      refine bind_noResult _ _ fun a _ => ?_
      obtain ⟨n, hn⟩ : ∃ n, (argc - 1).toNat = n + 1 := ⟨(argc - 1).toNat - 1, by omega⟩
      rw [hn]
      exact .inr rfl
  intro f hf
  simp only [List.mem_cons, List.not_mem_nil, or_false] at hf
  rcases hf with rfl | rfl | rfl | rfl | rfl <;> exact key _

/-- A later null pointer is not reached if the comparison is decided before. -/
example : LT 3 (some [some [0x62, 0], some [0x61, 0], none]) = .ok false := by decide

/-- **C128**, a null pointer anywhere in the list: CONCAT gives no result. A comparison gives no result either, unless the strings in front of the null
pointer alone make it FALSE; then it is FALSE, so a null pointer never makes a comparison TRUE. -/
theorem C128_list_partial (ty : StrTy) (front argv : List Ptr) (argc : Int) (h : front.length < argc) (dest : Ptr) :
    NoResult (concat (codecOf ty) dest argc (some (front ++ none :: argv))) ∧
    (∀ f ∈ [LT, LE, EQ, GE, GT], NoResult (f argc (some (front ++ none :: argv))) ∨
      (f argc (some (front ++ none :: argv)) = .ok false ∧ f front.length (some front) = .ok false)) := by
  constructor
  · have loop : ∀ (l : List Ptr) (n : Nat) (d : Dest), l.length < n → NoResult (concatLoop (codecOf ty) n (l ++ none :: argv) d) := by
      intro l
      induction l with
      | nil =>
        intro n d hn
        obtain ⟨n, rfl⟩ : ∃ k, n = k + 1 := ⟨n - 1, by simp at hn; omega⟩
        exact .inr rfl
      | cons a l ih =>
        intro n d hn
        obtain ⟨n, rfl⟩ : ∃ k, n = k + 1 := ⟨n - 1, by simp at hn; omega⟩
        refine bind_noResult _ _ fun items _ => bind_noResult _ _ fun d' _ => ih n d' (by simp at hn; omega)
    unfold concat
    cases dest with
    | none => exact .inl rfl
    | some mem =>
      refine bind_noResult _ _ fun d hd => ?_
      rcases loop front argc.toNat ⟨[], mem⟩ (by omega) with h | h <;> rw [h] at hd <;> cases hd
  · have loop : ∀ (pred : Ordering → Bool) (l : List Ptr) (n : Nat) (prev : List Nat), l.length < n →
        NoResult (compareLoop pred n prev (l ++ none :: argv)) ∨
        (compareLoop pred n prev (l ++ none :: argv) = .ok false ∧ compareLoop pred l.length prev l = .ok false) := by
      intro pred l
      induction l with
      | nil =>
        intro n prev hn
        obtain ⟨n, rfl⟩ : ∃ k, n = k + 1 := ⟨n - 1, by simp at hn; omega⟩
        exact .inl (.inr rfl)
      | cons a l ih =>
        intro n prev hn
        obtain ⟨n, rfl⟩ : ∃ k, n = k + 1 := ⟨n - 1, by simp at hn; omega⟩
        rw [List.cons_append, List.length_cons, compareLoop, compareLoop]
        cases ptr_to_slice a with
        | panic => exact .inl (.inl rfl)
        | ub => exact .inl (.inr rfl)
        | ok s =>
          simp only [Res.bind_ok]
          split
          · exact .inr ⟨rfl, rfl⟩
          · exact ih n s (by simp at hn; omega)
    have key : ∀ pred, NoResult (compare argc (some (front ++ none :: argv)) pred) ∨
        (compare argc (some (front ++ none :: argv)) pred = .ok false ∧ compare front.length (some front) pred = .ok false) := by
      intro pred
      unfold compare
      by_cases h2 : argc < 2
      · rw [if_pos h2]; exact .inl (.inl rfl)
      rw [if_neg h2]
      cases front with
      | nil => exact .inl (.inr rfl)
      | cons a l =>
        dsimp only [List.cons_append]
        cases ha : ptr_to_slice a with
        | panic => exact .inl (.inl rfl)
        | ub => exact .inl (.inr rfl)
        | ok s =>
          simp only [Res.bind_ok]
          rcases loop pred l (argc - 1).toNat s (by simp at h; omega) with hl | ⟨h3, h4⟩
          · exact .inl hl
          · refine .inr ⟨h3, ?_⟩
            cases l with
            | nil => cases h4
            | cons b l =>
              rw [if_neg (by simp; omega), show (((a :: b :: l).length : Int) - 1).toNat = (b :: l).length by simp]
              exact h4
    intro f hf
    simp only [List.mem_cons, List.not_mem_nil, or_false] at hf
    rcases hf with rfl | rfl | rfl | rfl | rfl <;> exact key _

/-- **C128**, conversions between numbers and texts: reading a number from a null pointer and writing one to a null pointer give
no result. -/
theorem C128_text_partial (n : Nat) (i : Int) :
    NoResult (STRING_TO_LINT none) ∧ NoResult (STRING_TO_DINT none) ∧ NoResult (STRING_TO_LREAL none) ∧
    NoResult (STRING_TO_REAL none) ∧ NoResult (BYTE_TO_STRING_EXT n none) ∧ NoResult (LWORD_TO_STRING_EXT n none) ∧
    NoResult (LINT_TO_STRING_EXT i none) ∧ NoResult (LREAL_TO_STRING_EXT n none) ∧ NoResult (DT_TO_STRING_EXT i none) ∧
    NoResult (DATE_TO_STRING_EXT i none) ∧ NoResult (TOD_TO_STRING_EXT i none) := by
  refine ⟨.inr rfl, .inr rfl, .inr rfl, .inr rfl, .inr rfl, .inr rfl, .inr rfl, ?_, .inr rfl, .inr rfl, .inr rfl⟩
  exact ite_noResult _ _ _ (.inr rfl) (.inr rfl)

end Verif
