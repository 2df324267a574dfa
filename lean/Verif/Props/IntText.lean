import Verif.Proofs.Parse
import Verif.Props.StringConv
/-
C59, C60, C75: integers as text.  C56 for the functions that write numbers.
-/
namespace Verif
open Spec

/-! ### Writing -/

theorem writeBuf_ok {dest text : List Nat} (hd : 81 ≤ dest.length) (ht : text.length ≤ 81) :
    writeBuf (some dest) text = .ok (text ++ dest.drop text.length) := by
  unfold writeBuf DEFAULT_STRING_LEN
  dsimp only
  rw [if_neg (by omega), if_neg (by omega)]

theorem decimal_le_20 {n : Nat} (h : n < 2 ^ 64) : (decimal n).length ≤ 20 :=
  decimal_length_le n 20 (by omega) (Nat.lt_trans h (by norm_num))

/-- **C59**, unsigned: BYTE/DWORD/LWORD_TO_STRING write the decimal notation of the value (no
leading zeros) at the start of the buffer and leave the rest as it was. -/
theorem C59_unsigned (n : Nat) (h : n < 2 ^ 64) (dest : List Nat) (hd : 81 ≤ dest.length) :
    LWORD_TO_STRING_EXT n (some dest) = .ok (decimal n ++ dest.drop (decimal n).length) ∧
    (n < 256 →
      BYTE_TO_STRING_EXT n (some dest) = .ok (decimal n ++ dest.drop (decimal n).length)) := by
  unfold LWORD_TO_STRING_EXT BYTE_TO_STRING_EXT
  have := decimal_le_20 h
  rw [fmtNat_eq]
  exact ⟨writeBuf_ok hd (by omega), fun _ => writeBuf_ok hd (by omega)⟩

theorem signedDecimal_le {x : Int} (h : IntTy.i64.InRange x) : (signedDecimal x).length ≤ 21 := by
  rw [i64_range] at h
  have := decimal_le_20 (n := x.natAbs) (by omega)
  unfold signedDecimal
  split
  · rw [List.length_append]; show 1 + _ ≤ _; omega
  · omega

/-- **C59**, signed: LINT_TO_STRING (and DINT_TO_STRING through it) writes the signed decimal
notation. -/
theorem C59_signed (x : Int) (h : IntTy.i64.InRange x) (dest : List Nat) (hd : 81 ≤ dest.length) :
    LINT_TO_STRING_EXT x (some dest) =
      .ok (signedDecimal x ++ dest.drop (signedDecimal x).length) := by
  unfold LINT_TO_STRING_EXT
  have := signedDecimal_le h
  rw [fmtInt_eq]
  exact writeBuf_ok hd (by omega)

theorem signedDecimal_ne_zero (x : Int) : ∀ b ∈ signedDecimal x, b ≠ 0 := by
  intro b hb
  unfold signedDecimal at hb
  split at hb
  · rcases List.mem_append.1 hb with hb | hb
    · have : b ∈ [45] := hb
      simp at this; omega
    · have := decimal_digit _ b hb; omega
  · have := decimal_digit _ b hb; omega

theorem literal_signedDecimal (x : Int) : IntLiteral (signedDecimal x) x := by
  unfold signedDecimal
  split
  · exact ⟨("", 10), by simp [prefixes], ("-", -1), by simp [signs], decimal x.natAbs, x.natAbs, rfl,
      numeral_decimal _, by show x = -1 * _; omega⟩
  · exact ⟨("", 10), by simp [prefixes], ("", 1), by simp [signs], decimal x.natAbs, x.natAbs, rfl,
      numeral_decimal _, by show x = 1 * _; omega⟩

/-- Behind a written text the buffer keeps its old content, so the buffer holds exactly the
text iff there was a zero at the place of the terminator. -/
theorem holds_written {dest text : List Nat} (hz : ∀ b ∈ text, b ≠ 0) :
    Holds (text ++ dest.drop text.length) text ↔ dest[text.length]? = some 0 := by
  constructor
  · rintro ⟨_, tail, ht⟩
    have hd := List.append_cancel_left ht
    have := congrArg (fun l => l[0]?) hd
    simpa [List.getElem?_drop] using this
  · intro h0
    obtain ⟨hlt, h0⟩ := List.getElem?_eq_some_iff.1 h0
    exact ⟨hz, dest.drop (text.length + 1), by rw [List.drop_eq_getElem_cons hlt, h0]⟩

/-! ### C60: reading -/

/-- **C60**: for every byte string, STRING_TO_LINT and STRING_TO_DINT return `v` exactly if the
string is an integer literal of value `v` that fits the type. -/
theorem C60_value (mem s : List Nat) (h : Holds mem s) (v : Int) :
    (STRING_TO_LINT (some mem) = .ok v ↔ IntLiteral s v ∧ -2 ^ 63 ≤ v ∧ v < 2 ^ 63) ∧
    (STRING_TO_DINT (some mem) = .ok v ↔ IntLiteral s v ∧ -2 ^ 31 ≤ v ∧ v < 2 ^ 31) := by
  constructor
  · unfold STRING_TO_LINT
    rw [string_to_int_iff .i64 (by decide) (by decide) h, i64_range]
    apply and_congr_right; intro _; omega
  · unfold STRING_TO_DINT
    rw [string_to_int_iff .i32 (by decide) (by decide) h]
    apply and_congr_right; intro _
    unfold IntTy.InRange IntTy.lo IntTy.hi IntTy.i32
    simp only [if_true]
    norm_num
    omega

/-- **C60**: in all other cases (empty string, bad digit, overflow, malformed UTF-8) the call
panics; it never does anything else. -/
theorem C60_otherwise_panics (mem s : List Nat) (h : Holds mem s) :
    ((¬ ∃ v, IntLiteral s v ∧ -2 ^ 63 ≤ v ∧ v < 2 ^ 63) → STRING_TO_LINT (some mem) = .panic) ∧
    ((¬ ∃ v, IntLiteral s v ∧ -2 ^ 31 ≤ v ∧ v < 2 ^ 31) → STRING_TO_DINT (some mem) = .panic) := by
  constructor
  · intro hn
    have hv := fun v => (C60_value mem s h v).1
    unfold STRING_TO_LINT at hv ⊢
    rcases string_to_int_total .i64 h with hp | ⟨v, he⟩
    · rw [hp]
    · rw [he] at hv
      exact absurd ⟨v, (hv v).1 rfl⟩ hn
  · intro hn
    have hv := fun v => (C60_value mem s h v).2
    unfold STRING_TO_DINT at hv ⊢
    rcases string_to_int_total .i32 h with hp | ⟨v, he⟩
    · rw [hp]
    · rw [he] at hv
      exact absurd ⟨v, (hv v).1 rfl⟩ hn

/-- A literal has one value. -/
theorem C60_unambiguous (s : List Nat) (v v' : Int) (h : IntLiteral s v) (h' : IntLiteral s v') :
    v = v' := by
  rw [literal_split] at h h'
  obtain ⟨sign, hs, digits, n, he, hn, rfl⟩ := h
  obtain ⟨sign', hs', digits', n', he', hn', rfl⟩ := h'
  have hr := (splitPrefix_radix s).2
  have nosign : ∀ {c cs n}, Numeral (splitPrefix s).2 (c :: cs) n → c ≠ 43 ∧ c ≠ 45 := by
    intro c cs n h
    obtain ⟨d, hd⟩ := numeral_mem h c (by simp)
    have := isDigit_alnum hr hd
    omega
  rw [he] at he'
  unfold signs at hs hs'
  simp only [List.mem_cons, List.not_mem_nil, or_false] at hs hs'
  have key : ∀ {a b : List Nat}, a = b → ∀ {n n'}, Numeral (splitPrefix s).2 a n →
      Numeral (splitPrefix s).2 b n' → n = n' := by
    rintro a b rfl n n' h h'; exact numeral_unique hr h h'
  rcases hs with rfl | rfl | rfl <;> rcases hs' with rfl | rfl | rfl
  · rw [key he' hn hn']
  · have : digits = 43 :: digits' := he'
    subst this; exact absurd rfl (nosign hn).1
  · have : digits = 45 :: digits' := he'
    subst this; exact absurd rfl (nosign hn).2
  · have : 43 :: digits = digits' := he'
    subst this; exact absurd rfl (nosign hn').1
  · have : (43 : Nat) :: digits = 43 :: digits' := he'
    injection this with _ this; rw [key this hn hn']
  · have : (43 : Nat) :: digits = 45 :: digits' := he'
    injection this with this _; omega
  · have : 45 :: digits = digits' := he'
    subst this; exact absurd rfl (nosign hn').2
  · have : (45 : Nat) :: digits = 43 :: digits' := he'
    injection this with this _; omega
  · have : (45 : Nat) :: digits = 45 :: digits' := he'
    injection this with _ this; rw [key this hn hn']

/-- "16#-7fF" is the literal -2047; the sign is after the prefix. -/
example : STRING_TO_LINT (some (ascii "16#-7fF" ++ [0])) = .ok (-2047) := by decide +kernel
example : STRING_TO_LINT (some (ascii "-16#7ff" ++ [0])) = .panic := by decide +kernel
example : STRING_TO_DINT (some (ascii "-2147483648" ++ [0])) = .ok (-2147483648) := by decide +kernel
example : STRING_TO_DINT (some (ascii "2147483648" ++ [0])) = .panic := by decide +kernel
example : STRING_TO_LINT (some (ascii "+" ++ [0])) = .panic := by decide +kernel
example : IntLiteral (ascii "8#+17") 15 :=
  ⟨("8#", 8), by simp [prefixes], ("+", 1), by simp [signs], ascii "17", 15, rfl,
    ⟨[1, 7], .cons ⟨by omega, .inl ⟨by omega, rfl⟩⟩ (.cons ⟨by omega, .inl ⟨by omega, rfl⟩⟩ .nil),
      by simp, by decide⟩, by decide⟩

/-- **C59**: reading back what LINT_TO_STRING wrote into a zeroed buffer gives the same
number; DINT likewise. -/
theorem C59_roundtrip (x : Int) (n : Nat) (hn : 81 ≤ n) :
    (IntTy.i64.InRange x → ∃ mem, LINT_TO_STRING_EXT x (some (List.replicate n 0)) = .ok mem ∧
      Holds mem (signedDecimal x) ∧ STRING_TO_LINT (some mem) = .ok x) ∧
    (IntTy.i32.InRange x → ∃ mem, LINT_TO_STRING_EXT x (some (List.replicate n 0)) = .ok mem ∧
      Holds mem (signedDecimal x) ∧ STRING_TO_DINT (some mem) = .ok x) := by
  have key : IntTy.i64.InRange x → ∃ mem,
      LINT_TO_STRING_EXT x (some (List.replicate n 0)) = .ok mem ∧ Holds mem (signedDecimal x) := by
    intro h
    refine ⟨_, C59_signed x h _ (by simpa using hn), (holds_written (signedDecimal_ne_zero x)).2 ?_⟩
    · have := signedDecimal_le h
      rw [List.getElem?_replicate, if_pos (by omega)]
  constructor
  · intro h
    obtain ⟨mem, h1, h2⟩ := key h
    refine ⟨mem, h1, h2, ((C60_value mem _ h2 x).1).2 ⟨literal_signedDecimal x, ?_⟩⟩
    rw [i64_range] at h; omega
  · intro h
    have hb : -2147483648 ≤ x ∧ x ≤ 2147483647 := by
      simpa [IntTy.InRange, IntTy.lo, IntTy.hi, IntTy.i32] using h
    obtain ⟨mem, h1, h2⟩ := key ((i64_range x).2 (by omega))
    exact ⟨mem, h1, h2, ((C60_value mem _ h2 x).2).2 ⟨literal_signedDecimal x, by omega⟩⟩

example : LINT_TO_STRING_EXT (-9223372036854775808) (some (List.replicate 81 0)) =
    .ok (ascii "-9223372036854775808" ++ List.replicate 61 0) := by decide +kernel
example : LWORD_TO_STRING_EXT 1000 (some (List.replicate 81 7)) =
    .ok (ascii "1000" ++ List.replicate 77 7) := by decide +kernel

/-! ### C56 for numbers -/

/-- C56 is false for the number conversions: 1 written over '42' gives '12'. -/
theorem C56_numbers_refuted :
    ¬ (∀ (x : Int) (dest out : List Nat), IntTy.i64.InRange x →
        LINT_TO_STRING_EXT x (some dest) = .ok out → Holds out (signedDecimal x)) := by
  intro h
  have h1 := h 1 (52 :: 50 :: List.replicate 79 0) (49 :: 50 :: List.replicate 79 0) (by decide)
    (by decide +kernel)
  have h2 : Holds (49 :: 50 :: List.replicate 79 0) [49, 50] :=
    ⟨by decide, List.replicate 78 0, by decide⟩
  have h3 := congrArg List.length (holds_unique h1 h2)
  revert h3; decide +kernel

/-- What is true: the result is the number iff the byte behind the number was zero before. -/
theorem C56_numbers_partial (dest : List Nat) (hd : 81 ≤ dest.length) :
    (∀ (x : Int) (out : List Nat), IntTy.i64.InRange x →
      LINT_TO_STRING_EXT x (some dest) = .ok out →
      (Holds out (signedDecimal x) ↔ dest[(signedDecimal x).length]? = some 0)) ∧
    (∀ (n : Nat) (out : List Nat), n < 2 ^ 64 → LWORD_TO_STRING_EXT n (some dest) = .ok out →
      (Holds out (decimal n) ↔ dest[(decimal n).length]? = some 0)) ∧
    (∀ (n : Nat) (out : List Nat), n < 256 → BYTE_TO_STRING_EXT n (some dest) = .ok out →
      (Holds out (decimal n) ↔ dest[(decimal n).length]? = some 0)) := by
  have hz : ∀ n, ∀ b ∈ decimal n, b ≠ 0 := fun n b hb => by have := decimal_digit n b hb; omega
  refine ⟨?_, ?_, ?_⟩
  · intro x out hx h
    rw [C59_signed x hx dest hd] at h
    rw [← Res.ok.inj h]
    exact holds_written (signedDecimal_ne_zero x)
  · intro n out hn h
    rw [(C59_unsigned n hn dest hd).1] at h
    rw [← Res.ok.inj h]
    exact holds_written (hz n)
  · intro n out hn h
    rw [(C59_unsigned n (by omega) dest hd).2 hn] at h
    rw [← Res.ok.inj h]
    exact holds_written (hz n)

/-! ### C75: WSTRING_TO_LINT and WSTRING_TO_DINT -/

/-- What is true: if the text takes at most 80 bytes in UTF-8, WSTRING_TO_LINT agrees with
STRING_TO_LINT, and WSTRING_TO_DINT is its low 32 bits.  A longer text overflows the
temporary. -/
theorem C75_partial (memw mems : List Nat) (t : List Char) (hw : Holds memw (utf16 t))
    (hs : Holds mems (utf8 t)) :
    ((utf8 t).length ≤ 80 →
      WSTRING_TO_LINT (some memw) = STRING_TO_LINT (some mems) ∧
      (∀ v, WSTRING_TO_DINT (some memw) = .ok v ↔
        ∃ x, STRING_TO_LINT (some mems) = .ok x ∧ IntTy.i32.InRange v ∧ ∃ k, x = v + k * 2 ^ 32)) ∧
    (80 < (utf8 t).length → WSTRING_TO_LINT (some memw) = .ub ∧ WSTRING_TO_DINT (some memw) = .ub) := by
  have hc : WSTRING_TO_STRING_EXT (some memw) (some tempString) = store tempString (utf8 t) := by
    rw [C55_wstring_to_string memw _ tempString _ hw (elements_text t), List.map_map]
    congr 2
    exact List.map_id'' (fun _ => rfl) t
  constructor
  · intro hl
    have hst : store tempString (utf8 t) =
        .ok (utf8 t ++ 0 :: tempString.drop ((utf8 t).length + 1)) := by
      unfold store tempString
      rw [if_pos (by rw [List.length_replicate]; omega)]
    have hh : Holds (utf8 t ++ 0 :: tempString.drop ((utf8 t).length + 1)) (utf8 t) :=
      ⟨hs.1, _, rfl⟩
    have heq : STRING_TO_LINT (some (utf8 t ++ 0 :: tempString.drop ((utf8 t).length + 1))) =
        STRING_TO_LINT (some mems) := by
      unfold STRING_TO_LINT string_to_int
      rw [ptr_to_slice_of_holds hh, ptr_to_slice_of_holds hs]
    have hL : WSTRING_TO_LINT (some memw) = STRING_TO_LINT (some mems) := by
      unfold WSTRING_TO_LINT
      rw [hc, hst, Res.bind_ok, heq]
    refine ⟨hL, fun v => ?_⟩
    unfold WSTRING_TO_DINT
    rw [hc, hst, Res.bind_ok, heq]
    constructor
    · intro h
      obtain ⟨x, hx, hv⟩ := Res.bind_eq_ok.1 h
      rw [Res.pure_eq, Res.ok.injEq] at hv
      have hcg := IntTy.wrap_congr .i32 x
      refine ⟨x, hx, hv ▸ IntTy.wrap_inRange .i32 (by decide) x, ?_⟩
      rw [hv] at hcg
      have hcg : (4294967296 : Int) ∣ v - x := hcg
      obtain ⟨k, hk⟩ := hcg
      exact ⟨-k, by omega⟩
    · rintro ⟨x, hx, hv, k, rfl⟩
      rw [hx, Res.bind_ok]
      rw [Res.pure_eq, Res.ok.injEq]
      apply IntTy.eq_of_congr .i32 (by decide) (IntTy.wrap_inRange .i32 (by decide) _) hv
      have hcg : (4294967296 : Int) ∣ _ := IntTy.wrap_congr .i32 (v + k * 2 ^ 32)
      show (4294967296 : Int) ∣ _
      omega
  · intro hl
    have hst : store tempString (utf8 t) = .ub := by
      unfold store tempString
      rw [if_neg (by rw [List.length_replicate]; omega)]
    unfold WSTRING_TO_LINT WSTRING_TO_DINT
    rw [hc, hst]
    exact ⟨rfl, rfl⟩

example : WSTRING_TO_LINT (some (ascii "0b-101" ++ [0])) = .ok (-5) := by decide +kernel
/-- C75 is false: WSTRING_TO_DINT of "2147483648" returns -2147483648 where STRING_TO_DINT
panics, and a WSTRING of 81 characters makes WSTRING_TO_LINT write behind its temporary STRING
where STRING_TO_LINT just panics. -/
theorem C75_refuted :
    ¬ (∀ (memw mems : List Nat) (t : List Char), Holds memw (utf16 t) → Holds mems (utf8 t) →
        WSTRING_TO_DINT (some memw) = STRING_TO_DINT (some mems)) ∧
    ¬ (∀ (memw mems : List Nat) (t : List Char), Holds memw (utf16 t) → Holds mems (utf8 t) →
        WSTRING_TO_LINT (some memw) = STRING_TO_LINT (some mems)) := by
  constructor
  · intro h
    have hw : Holds (ascii "2147483648" ++ [0]) (utf16 "2147483648".toList) := ⟨by decide, [], by decide⟩
    have hs : Holds (ascii "2147483648" ++ [0]) (utf8 "2147483648".toList) := ⟨by decide, [], by decide⟩
    have he := h _ _ "2147483648".toList hw hs
    have hl : STRING_TO_LINT (some (ascii "2147483648" ++ [0])) = .ok 2147483648 := by
      refine (C60_value _ _ hs _).1.2 ⟨?_, by decide, by decide⟩
      have := literal_signedDecimal 2147483648
      rw [show signedDecimal 2147483648 = utf8 "2147483648".toList by decide +kernel] at this
      exact this
    have hd := ((C75_partial _ _ _ hw hs).1 (by decide)).2 (-2147483648)
    rw [hl, he, (C60_value _ _ hs _).2] at hd
    have := hd.2 ⟨_, rfl, by decide, 1, by decide⟩
    have hu := C60_unambiguous _ _ _ this.1 ((C60_value _ _ hs _).1.1 hl).1
    revert hu; decide
  · intro h
    have hs : Holds (List.replicate 81 0x61 ++ [0]) (utf8 (List.replicate 81 'a')) := ⟨by decide, [], by decide⟩
    have hw : Holds (List.replicate 81 0x61 ++ [0]) (utf16 (List.replicate 81 'a')) := ⟨by decide, [], by decide⟩
    have he := h _ _ (List.replicate 81 'a') hw hs
    rw [((C75_partial _ _ _ hw hs).2 (by decide)).1] at he
    unfold STRING_TO_LINT at he
    rcases string_to_int_total .i64 hs with hp | ⟨v, hv⟩
    · rw [hp] at he; cases he
    · rw [hv] at he; cases he

example : WSTRING_TO_DINT (some (ascii "4294967297" ++ [0])) = .ok 1 := by decide +kernel

end Verif
