import Verif.Model.Strings
import Verif.Proofs.Unicode
import Verif.Proofs.Ints
/-
Lemmas about the string functions: reading a terminated string, writing one, and the
behaviour common to both codecs.
-/
namespace Verif
open Spec

/-- The codec a string type is handled with. -/
def codecOf : StrTy → Codec
  | .STRING => codec8
  | .WSTRING => codec16

/-! ### Reading -/

theorem nulLen_of_holds {mem s : List Nat} (h : Holds mem s) : nulLen mem = some s.length := by
  obtain ⟨h0, tail, rfl⟩ := h
  induction s with
  | nil => rfl
  | cons u s ih =>
    have hu : u ≠ 0 := h0 u (by simp)
    simp [nulLen, hu, ih (fun v hv => h0 v (by simp [hv]))]

theorem holds_of_nulLen {mem : List Nat} {n : Nat} (h : nulLen mem = some n) :
    Holds mem (mem.take n) := by
  induction mem generalizing n with
  | nil => simp [nulLen] at h
  | cons u l ih =>
    unfold nulLen at h
    by_cases hu : u = 0
    · simp [hu] at h; subst h; exact ⟨by simp, l, by simp [hu]⟩
    · simp [hu] at h
      obtain ⟨m, hm, rfl⟩ := h
      obtain ⟨h0, tail, ht⟩ := ih hm
      refine ⟨?_, tail, ?_⟩
      · intro v hv
        simp only [List.take_succ_cons, List.mem_cons] at hv
        rcases hv with rfl | hv
        · exact hu
        · exact h0 v hv
      · rw [List.take_succ_cons, List.cons_append, ← ht]

theorem ptr_to_slice_of_holds {mem s : List Nat} (h : Holds mem s) :
    ptr_to_slice (some mem) = .ok s := by
  have hn := nulLen_of_holds h
  obtain ⟨h0, tail, rfl⟩ := h
  simp [ptr_to_slice, get_null_terminated_len, hn]

theorem ptr_to_slice_eq_ok {mem s : List Nat} (h : ptr_to_slice (some mem) = .ok s) :
    Holds mem s := by
  unfold ptr_to_slice get_null_terminated_len at h
  cases hn : nulLen mem with
  | none => simp [hn] at h
  | some n => simp [hn] at h; subst h; exact holds_of_nulLen hn

theorem holds_unique {mem s t : List Nat} (hs : Holds mem s) (ht : Holds mem t) : s = t := by
  have := ptr_to_slice_of_holds hs
  rw [ptr_to_slice_of_holds ht] at this
  exact (Res.ok.inj this).symm

/-- A terminated memory holds exactly one string; without a zero unit there is none. -/
theorem holds_or_no_zero (mem : List Nat) : (∃ s, Holds mem s) ∨ (∀ u ∈ mem, u ≠ 0) := by
  induction mem with
  | nil => right; simp
  | cons u l ih =>
    by_cases hu : u = 0
    · left; exact ⟨[], by simp, l, by simp [hu]⟩
    · rcases ih with ⟨s, h0, tail, rfl⟩ | h
      · left; refine ⟨u :: s, ?_, tail, by simp⟩
        intro v hv; simp only [List.mem_cons] at hv
        rcases hv with rfl | hv
        · exact hu
        · exact h0 v hv
      · right; intro v hv; simp only [List.mem_cons] at hv
        rcases hv with rfl | hv
        · exact hu
        · exact h v hv

/-! ### Writing -/

/-- A list of units is put one after the other while there is room. -/
theorem put_all (us : List Nat) (d : Dest) :
    us.foldlM Dest.put d =
      if us.length ≤ d.room.length then .ok ⟨d.written ++ us, d.room.drop us.length⟩ else .ub := by
  induction us generalizing d with
  | nil => simp
  | cons u us ih =>
    obtain ⟨w, r⟩ := d
    cases r with
    | nil => simp [Dest.put]
    | cons x r =>
      simp only [List.foldlM_cons, Dest.put, Res.bind_ok, ih, List.length_cons,
        Nat.add_le_add_iff_right, List.drop_succ_cons, List.append_assoc, List.singleton_append]

/-- What a list of items is written as, if every item can be written. -/
def Codec.allUnits (k : Codec) : List k.Item → Res (List Nat)
  | [] => .ok []
  | c :: l => do
    let a ← k.units c
    let b ← k.allUnits l
    pure (a ++ b)

theorem encode_items (k : Codec) (items : List k.Item) (d : Dest) {us : List Nat}
    (h : k.allUnits items = .ok us) :
    items.foldlM (fun d c => (k.units c) >>= fun slice => slice.foldlM Dest.put d) d =
      if us.length ≤ d.room.length then .ok ⟨d.written ++ us, d.room.drop us.length⟩ else .ub := by
  induction items generalizing d us with
  | nil => simp [Codec.allUnits] at h; subst h; simp
  | cons c l ih =>
    rw [Codec.allUnits, Res.bind_eq_ok] at h
    obtain ⟨a, ha, h⟩ := h
    rw [Res.bind_eq_ok] at h
    obtain ⟨b, hb, h⟩ := h
    simp at h; subst h
    rw [List.foldlM_cons, ha, Res.bind_ok, put_all]
    by_cases h1 : a.length ≤ d.room.length
    · rw [if_pos h1, Res.bind_ok, ih _ hb]
      simp only [List.length_drop, List.length_append, List.drop_drop, List.append_assoc]
      by_cases h2 : b.length ≤ d.room.length - a.length
      · rw [if_pos h2, if_pos (by omega)]
      · rw [if_neg h2, if_neg (by omega)]
    · rw [if_neg h1, Res.bind_ub, if_neg (by simp; omega)]

theorem encode_eq (k : Codec) (items : List k.Item) (d : Dest) {us : List Nat}
    (h : k.allUnits items = .ok us) :
    k.encode items d =
      if us.length < d.room.length then
        .ok ⟨d.written ++ us, 0 :: d.room.drop (us.length + 1)⟩ else .ub := by
  unfold Codec.encode
  rw [encode_items k items d h]
  by_cases h1 : us.length < d.room.length
  · rw [if_pos (by omega), if_pos h1, Res.bind_ok]
    unfold Dest.terminate
    simp only
    rw [List.drop_eq_getElem_cons h1]
  · rw [if_neg h1]
    by_cases h2 : us.length ≤ d.room.length
    · rw [if_pos h2, Res.bind_ok]
      unfold Dest.terminate
      simp only
      rw [List.drop_eq_nil_of_le (by omega)]
    · rw [if_neg h2, Res.bind_ub]

theorem write_eq (k : Codec) (items : List k.Item) (dest : List Nat) {us : List Nat}
    (h : k.allUnits items = .ok us) : k.write items (some dest) = store dest us := by
  unfold Codec.write openDest store
  rw [Res.bind_ok, encode_eq k items _ h]
  by_cases h1 : us.length < dest.length
  · simp [h1, Dest.mem]
  · simp [h1]

/-- An item that cannot be written makes a write with enough room panic. -/
theorem write_panic (k : Codec) (hnoub : ∀ c, k.units c ≠ .ub) (items : List k.Item)
    (dest : List Nat) (B : Nat) (hB : ∀ c a, k.units c = .ok a → a.length ≤ B)
    (h : k.allUnits items = .panic) (hroom : items.length * B ≤ dest.length) :
    k.write items (some dest) = .panic := by
  have key : ∀ (items : List k.Item) (d : Dest), k.allUnits items = .panic →
      items.length * B ≤ d.room.length →
      items.foldlM (fun d c => (k.units c) >>= fun slice => slice.foldlM Dest.put d) d
        = .panic := by
    intro items
    induction items with
    | nil => intro d h; simp [Codec.allUnits] at h
    | cons c l ih =>
      intro d h hr
      rw [List.foldlM_cons]
      rw [Codec.allUnits] at h
      cases hc : k.units c with
      | panic => rfl
      | ub => exact absurd hc (hnoub c)
      | ok a =>
        rw [hc, Res.bind_ok] at h
        have ha := hB c a hc
        rw [List.length_cons, Nat.succ_mul] at hr
        rw [Res.bind_ok, put_all, if_pos (by omega), Res.bind_ok]
        apply ih
        · cases hl : k.allUnits l with
          | panic => rfl
          | ub => rw [hl] at h; simp at h
          | ok b => rw [hl] at h; simp at h
        · simp only [List.length_drop]; omega
  unfold Codec.write openDest Codec.encode
  rw [Res.bind_ok, key items _ h hroom]
  rfl

/-! ### Texts -/

/-- A codec item for a character. -/
def item : (ty : StrTy) → Char → (codecOf ty).Item
  | .STRING, c => c
  | .WSTRING, c => some c

theorem units_item (ty : StrTy) (c : Char) : (codecOf ty).units (item ty c) = .ok (ty.units [c]) := by
  cases ty
  · show Res.ok (encode_utf8 c) = _
    rw [encode_utf8_eq]; simp [StrTy.units, utf8]
  · show (Res.unwrap (some c) >>= fun c => pure (encode_utf16 c)) = _
    simp only [Res.unwrap_some, Res.bind_ok, Res.pure_eq, encode_utf16_eq]
    simp [StrTy.units, utf16]

theorem units_append (ty : StrTy) (s t : List Char) :
    ty.units (s ++ t) = ty.units s ++ ty.units t := by
  cases ty
  · exact utf8_append s t
  · exact utf16_append s t

theorem units_cons (ty : StrTy) (c : Char) (t : List Char) :
    ty.units (c :: t) = ty.units [c] ++ ty.units t := units_append ty [c] t

theorem units_nil (ty : StrTy) : ty.units [] = [] := by cases ty <;> rfl

theorem units_injective (ty : StrTy) {s t : List Char} (h : ty.units s = ty.units t) : s = t := by
  cases ty
  · exact utf8_injective h
  · exact utf16_injective h

theorem allUnits_text (ty : StrTy) (t : List Char) :
    (codecOf ty).allUnits (t.map (item ty)) = .ok (ty.units t) := by
  induction t with
  | nil => simp [Codec.allUnits, units_nil]
  | cons c t ih =>
    rw [List.map_cons, Codec.allUnits, units_item, ih, units_cons ty c t]; rfl

theorem decodeSlice_text (ty : StrTy) (t : List Char) :
    (codecOf ty).decodeSlice (ty.units t) = .ok (t.map (item ty)) := by
  cases ty
  · show (if from_utf8 (utf8 t) then Res.ok (chars (utf8 t)) else .panic) = _
    rw [if_pos ((from_utf8_iff _).2 ⟨t, rfl⟩), chars_utf8]
    show Res.ok t = .ok (t.map id)
    rw [List.map_id]
  · show Res.ok (decode_utf16 (utf16 t)) = _
    rw [decode_utf16_utf16]; rfl

theorem decode_text (ty : StrTy) {t : List Char} {mem : List Nat} (h : Holds mem (ty.units t)) :
    (codecOf ty).decode (some mem) = .ok (t.map (item ty)) := by
  unfold Codec.decode
  rw [ptr_to_slice_of_holds h, Res.bind_ok, decodeSlice_text]

theorem write_text (ty : StrTy) (t : List Char) (dest : List Nat) :
    (codecOf ty).write (t.map (item ty)) (some dest) = store dest (ty.units t) :=
  write_eq _ _ _ (allUnits_text ty t)

/-- Characters other than NUL have no zero unit. -/
theorem units_ne_zero (ty : StrTy) {t : List Char} (h : NoNul t) : ∀ u ∈ ty.units t, u ≠ 0 := by
  induction t with
  | nil => rw [units_nil]; simp
  | cons c t ih =>
    rw [units_cons]
    intro u hu
    rw [List.mem_append] at hu
    rcases hu with hu | hu
    · have hc : c.toNat ≠ 0 := h c (by simp)
      have hb := char_bounds c
      cases ty
      · simp only [StrTy.units, utf8, List.flatMap_cons, List.flatMap_nil, List.append_nil,
          utf8Char] at hu
        generalize c.toNat = n at *
        split at hu <;> try split at hu <;> try split at hu
        all_goals simp only [List.mem_cons, List.not_mem_nil, or_false] at hu; omega
      · simp only [StrTy.units, utf16, List.flatMap_cons, List.flatMap_nil, List.append_nil,
          utf16Char] at hu
        generalize c.toNat = n at *
        split at hu
        all_goals simp only [List.mem_cons, List.not_mem_nil, or_false] at hu; omega
    · exact ih (fun c hc => h c (by simp [hc])) u hu

theorem noNul_of_units (ty : StrTy) {t : List Char} (h : ∀ u ∈ ty.units t, u ≠ 0) : NoNul t := by
  intro c hc h0
  obtain ⟨a, b, rfl⟩ := List.append_of_mem hc
  apply h 0 ?_ rfl
  rw [units_append, units_cons]
  have : ty.units [c] = [0] := by
    cases ty <;> simp [StrTy.units, utf8, utf16, utf8Char, utf16Char, h0]
  rw [this]; simp

theorem holds_text (ty : StrTy) {t : List Char} (h : NoNul t) (tail : List Nat) :
    Holds (ty.units t ++ 0 :: tail) (ty.units t) :=
  ⟨units_ne_zero ty h, tail, rfl⟩

theorem noNul_of_holds (ty : StrTy) {t : List Char} {mem : List Nat}
    (h : Holds mem (ty.units t)) : NoNul t := noNul_of_units ty h.1

/-- What `store` leaves is a terminated string. -/
theorem holds_of_store {dest s mem : List Nat} (h : store dest s = .ok mem) (hs : ∀ u ∈ s, u ≠ 0) :
    Holds mem s := by
  unfold store at h
  split at h
  · cases h; exact ⟨hs, _, rfl⟩
  · cases h

/-! ### Casts -/

theorem asUsize_nonneg {x : Int} (h0 : 0 ≤ x) (h : x < 2 ^ 64) : asUsize x = x.toNat := by
  unfold asUsize
  have : IntTy.u64.wrap x = x := IntTy.wrap_of_inRange _ (by decide) (by
    simp [IntTy.InRange, IntTy.lo, IntTy.hi, IntTy.u64]; omega)
  rw [this]

theorem asUsize_neg {x : Int} (h0 : x < 0) (h : - 2 ^ 63 ≤ x) :
    asUsize x = (x + 2 ^ 64).toNat := by
  unfold asUsize IntTy.wrap IntTy.u64
  simp only [Bool.false_eq_true, if_false]
  congr 1
  omega

theorem asI32_small {n : Nat} (h : n < 2 ^ 31) : asI32 n = n := by
  unfold asI32
  exact IntTy.wrap_of_inRange _ (by decide) (by
    simp [IntTy.InRange, IntTy.lo, IntTy.hi, IntTy.i32]; omega)

theorem arith_u64 (p : Profile) {x : Int} (h0 : 0 ≤ x) (h : x < 2 ^ 64) :
    IntTy.u64.arith p x = .ok x := by
  unfold IntTy.arith
  rw [if_pos (by simp [IntTy.InRange, IntTy.lo, IntTy.hi, IntTy.u64]; omega)]

end Verif
