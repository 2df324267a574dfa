import Verif.Model.Unicode
import Verif.Spec.Unicode
/-
The Unicode encoders and decoders of the model against Spec/Unicode.lean.
-/
namespace Verif
open Spec

/-! ### Bit operations as arithmetic -/

theorem and_1F (n : Nat) : n &&& 0x1F = n % 32 := Nat.and_two_pow_sub_one_eq_mod n 5
theorem and_0F (n : Nat) : n &&& 0x0F = n % 16 := Nat.and_two_pow_sub_one_eq_mod n 4
theorem and_07 (n : Nat) : n &&& 7 = n % 8 := Nat.and_two_pow_sub_one_eq_mod n 3
theorem and_3F (n : Nat) : n &&& 0x3F = n % 64 := Nat.and_two_pow_sub_one_eq_mod n 6
theorem and_3FF (n : Nat) : n &&& 0x3FF = n % 1024 := Nat.and_two_pow_sub_one_eq_mod n 10
theorem and_FFFF (n : Nat) : n &&& 0xFFFF = n % 65536 := Nat.and_two_pow_sub_one_eq_mod n 16

theorem or_low (a i b : Nat) (h : b < 2 ^ i) : (a * 2 ^ i) ||| b = a * 2 ^ i + b := by
  rw [Nat.mul_comm, Nat.two_pow_add_eq_or_of_lt h]

theorem or_80 (b : Nat) (h : b < 64) : b ||| 0x80 = 0x80 + b := by
  rw [Nat.or_comm]; exact or_low 1 7 b (by omega)
theorem or_C0 (b : Nat) (h : b < 64) : b ||| 0xC0 = 0xC0 + b := by
  rw [Nat.or_comm]; exact or_low 3 6 b h
theorem or_E0 (b : Nat) (h : b < 32) : b ||| 0xE0 = 0xE0 + b := by
  rw [Nat.or_comm]; exact or_low 7 5 b h
theorem or_F0 (b : Nat) (h : b < 16) : b ||| 0xF0 = 0xF0 + b := by
  rw [Nat.or_comm]; exact or_low 15 4 b h
theorem or_D800 (b : Nat) (h : b < 1024) : 0xD800 ||| b = 0xD800 + b := or_low 54 10 b h
theorem or_DC00 (b : Nat) (h : b < 1024) : 0xDC00 ||| b = 0xDC00 + b := or_low 55 10 b h

theorem shl_or_6 (a b : Nat) (h : b < 64) : (a <<< 6) ||| b = a * 64 + b := by
  rw [Nat.shiftLeft_eq]; exact or_low a 6 b h
theorem shl_or_12 (a b : Nat) (h : b < 4096) : (a <<< 12) ||| b = a * 4096 + b := by
  rw [Nat.shiftLeft_eq]; exact or_low a 12 b h
theorem shl_or_18 (a b : Nat) (h : b < 262144) : (a <<< 18) ||| b = a * 262144 + b := by
  rw [Nat.shiftLeft_eq]; exact or_low a 18 b h
theorem shl_or_10 (a b : Nat) (h : b < 1024) : (a <<< 10) ||| b = a * 1024 + b := by
  rw [Nat.shiftLeft_eq]; exact or_low a 10 b h

theorem shr_6 (n : Nat) : n >>> 6 = n / 64 := Nat.shiftRight_eq_div_pow n 6
theorem shr_10 (n : Nat) : n >>> 10 = n / 1024 := Nat.shiftRight_eq_div_pow n 10
theorem shr_12 (n : Nat) : n >>> 12 = n / 4096 := Nat.shiftRight_eq_div_pow n 12
theorem shr_18 (n : Nat) : n >>> 18 = n / 262144 := Nat.shiftRight_eq_div_pow n 18

/-- The surrogate test of `decode_utf16`. -/
theorem surrogate_test (u : Nat) (hu : u < 65536) :
    ((u &&& 0xF800) != 0xD800) = true ↔ ¬ (0xD800 ≤ u ∧ u ≤ 0xDFFF) := by
  have h : u &&& 0xF800 = u / 2048 % 32 * 2048 := by
    apply Nat.eq_of_testBit_eq
    intro i
    rw [Nat.testBit_and, show u / 2048 % 32 * 2048 = (u / 2 ^ 11 % 2 ^ 5) * 2 ^ 11 by omega,
      Nat.testBit_mul_two_pow, show (0xF800 : Nat) = (2 ^ 5 - 1) * 2 ^ 11 by rfl,
      Nat.testBit_mul_two_pow, Nat.testBit_two_pow_sub_one, Nat.testBit_mod_two_pow,
      Nat.testBit_div_two_pow]
    by_cases h11 : 11 ≤ i
    · rw [show i - 11 + 11 = i by omega]
      cases hb : u.testBit i <;> simp [h11]
    · simp [h11]
  rw [h]
  simp only [bne_iff_ne, ne_eq]
  omega

/-! ### Characters -/

theorem char_bounds (c : Char) :
    c.toNat < 0xD800 ∨ (0xDFFF < c.toNat ∧ c.toNat < 0x110000) := c.valid

theorem ofNat_toNat (c : Char) : Char.ofNat c.toNat = c := Char.ofNat_toNat c

theorem toNat_ofNat {n : Nat} (h : n < 0xD800 ∨ (0xDFFF < n ∧ n < 0x110000)) :
    (Char.ofNat n).toNat = n := by
  have hv : n.isValidChar := h
  simp only [Char.ofNat, hv, dif_pos]
  rfl

theorem encode_utf8_eq (c : Char) : encode_utf8 c = utf8Char c := by
  have hc := char_bounds c
  unfold encode_utf8 utf8Char
  simp only [and_1F, and_0F, and_07, and_3F, shr_6, shr_12, shr_18]
  generalize c.toNat = n at hc
  by_cases h1 : n < 0x80
  · simp [h1]
  by_cases h2 : n < 0x800
  · simp only [h1, h2, if_true, if_false]
    rw [or_C0 _ (by omega), or_80 _ (by omega)]
    congr 1; omega
  by_cases h3 : n < 0x10000
  · simp only [h1, h2, h3, if_true, if_false]
    rw [or_E0 _ (by omega), or_80 _ (by omega), or_80 _ (by omega)]
    congr 1; omega
  · simp only [h1, h2, h3, if_false]
    rw [or_F0 _ (by omega), or_80 _ (by omega), or_80 _ (by omega), or_80 _ (by omega)]
    congr 1; omega

theorem encode_utf16_eq (c : Char) : encode_utf16 c = utf16Char c := by
  have hc := char_bounds c
  unfold encode_utf16 utf16Char
  simp only [and_FFFF, and_3FF, shr_10]
  generalize c.toNat = n at hc
  by_cases h1 : n < 0x10000
  · rw [if_pos (by simp only [beq_iff_eq]; omega), if_pos h1]
  · rw [if_neg (by simp only [beq_iff_eq]; omega), if_neg h1,
      or_D800 _ (by omega), or_DC00 _ (by omega)]

/-! ### UTF-8 -/

theorem utf8_nil : utf8 [] = [] := rfl
theorem utf8_cons (c : Char) (t : List Char) : utf8 (c :: t) = utf8Char c ++ utf8 t := rfl
theorem utf8_append (s t : List Char) : utf8 (s ++ t) = utf8 s ++ utf8 t := by
  simp [utf8]
theorem utf16_nil : utf16 [] = [] := rfl
theorem utf16_cons (c : Char) (t : List Char) : utf16 (c :: t) = utf16Char c ++ utf16 t := rfl
theorem utf16_append (s t : List Char) : utf16 (s ++ t) = utf16 s ++ utf16 t := by
  simp [utf16]

theorem from_utf8_char (c : Char) (l : List Nat) :
    from_utf8 (utf8Char c ++ l) = from_utf8 l := by
  have hc := char_bounds c
  unfold utf8Char
  simp only
  generalize c.toNat = n at hc
  by_cases h1 : n < 0x80
  · rw [if_pos h1]
    rw [List.singleton_append, from_utf8.eq_def]; dsimp only; rw [if_pos h1]
  rw [if_neg h1]
  by_cases h2 : n < 0x800
  · rw [if_pos h2]
    simp only [List.cons_append, List.nil_append]
    rw [from_utf8.eq_def]; dsimp only
    rw [if_neg (by omega), if_pos (by simp; omega)]
    have : utf8Cont (0x80 + n % 64) = true := by simp [utf8Cont]; omega
    simp [this]
  rw [if_neg h2]
  by_cases h3 : n < 0x10000
  · rw [if_pos h3]
    simp only [List.cons_append, List.nil_append]
    rw [from_utf8.eq_def]; dsimp only
    rw [if_neg (by omega), if_neg (by simp; omega), if_pos (by simp; omega)]
    have h : utf8Cont (0x80 + n % 64) = true := by simp [utf8Cont]; omega
    simp only [h, Bool.and_true]
    rw [show ∀ (a b : Bool), a = true → (a && b) = b by intro a b h; simp [h]]
    simp only [Bool.or_eq_true, Bool.and_eq_true, beq_iff_eq, decide_eq_true_eq]
    omega
  · rw [if_neg h3]
    simp only [List.cons_append, List.nil_append]
    rw [from_utf8.eq_def]; dsimp only
    rw [if_neg (by omega), if_neg (by simp; omega), if_neg (by simp; omega),
      if_pos (by simp; omega)]
    have h : utf8Cont (0x80 + n % 64) = true := by simp [utf8Cont]; omega
    have h' : utf8Cont (0x80 + n / 64 % 64) = true := by simp [utf8Cont]; omega
    simp only [h, h', Bool.and_true]
    rw [show ∀ (a b : Bool), a = true → (a && b) = b by intro a b h; simp [h]]
    simp only [Bool.or_eq_true, Bool.and_eq_true, beq_iff_eq, decide_eq_true_eq]
    omega

theorem chars_char (c : Char) (l : List Nat) : chars (utf8Char c ++ l) = c :: chars l := by
  have hc := char_bounds c
  have hn := ofNat_toNat c
  unfold utf8Char
  simp only
  generalize c.toNat = n at hc hn
  by_cases h1 : n < 0x80
  · rw [if_pos h1, List.singleton_append, chars.eq_def]; dsimp only; rw [if_pos (by omega), hn]
  rw [if_neg h1]
  by_cases h2 : n < 0x800
  · rw [if_pos h2]
    simp only [List.cons_append, List.nil_append]
    rw [chars.eq_def]; dsimp only
    rw [if_neg (by omega)]
    rw [if_pos (by omega), and_1F, and_3F, shl_or_6 _ _ (by omega), ← hn]
    congr 2; omega
  rw [if_neg h2]
  by_cases h3 : n < 0x10000
  · rw [if_pos h3]
    simp only [List.cons_append, List.nil_append]
    rw [chars.eq_def]; dsimp only
    rw [if_neg (by omega)]
    rw [if_neg (by omega), if_pos (by omega), and_1F, and_3F, and_3F, shl_or_6 _ _ (by omega),
      shl_or_12 _ _ (by omega), ← hn]
    congr 2; omega
  · rw [if_neg h3]
    simp only [List.cons_append, List.nil_append]
    rw [chars.eq_def]; dsimp only
    rw [if_neg (by omega)]
    rw [if_neg (by omega), if_neg (by omega), and_1F, and_3F, and_3F, and_3F, and_07,
      shl_or_6 _ _ (by omega), shl_or_6 _ _ (by omega), shl_or_18 _ _ (by omega), ← hn]
    congr 2; omega

/-- A valid UTF-8 byte string starts with a character or is empty. -/
theorem from_utf8_step {l : List Nat} (h : from_utf8 l = true) (hl : l ≠ []) :
    ∃ (c : Char) (r : List Nat), l = utf8Char c ++ r ∧ from_utf8 r = true := by
  cases l with
  | nil => exact absurd rfl hl
  | cons b0 l =>
    rw [from_utf8.eq_def] at h; dsimp only at h
    by_cases h1 : b0 < 0x80
    · rw [if_pos h1] at h
      refine ⟨Char.ofNat b0, l, ?_, h⟩
      have := toNat_ofNat (n := b0) (by omega)
      simp only [utf8Char, this, h1, if_true, List.singleton_append]
    rw [if_neg h1] at h
    by_cases h2 : (0xC2 ≤ b0 && b0 ≤ 0xDF) = true
    · rw [if_pos h2] at h
      simp only [Bool.and_eq_true, decide_eq_true_eq] at h2
      match l, h with
      | b1 :: l, h =>
        simp only [Bool.and_eq_true, utf8Cont, decide_eq_true_eq] at h
        refine ⟨Char.ofNat ((b0 - 0xC0) * 64 + (b1 - 0x80)), l, ?_, h.2⟩
        have hv := toNat_ofNat (n := (b0 - 0xC0) * 64 + (b1 - 0x80)) (by omega)
        simp only [utf8Char, hv]
        rw [if_neg (by omega), if_pos (by omega)]
        simp only [List.cons_append, List.nil_append]
        exact List.cons_eq_cons.2 ⟨by omega, List.cons_eq_cons.2 ⟨by omega, rfl⟩⟩
    rw [if_neg h2] at h
    by_cases h3 : (0xE0 ≤ b0 && b0 ≤ 0xEF) = true
    · rw [if_pos h3] at h
      simp only [Bool.and_eq_true, decide_eq_true_eq] at h3
      match l, h with
      | b1 :: b2 :: l, h =>
        simp only [Bool.and_eq_true, Bool.or_eq_true, beq_iff_eq, utf8Cont, decide_eq_true_eq] at h
        refine ⟨Char.ofNat ((b0 - 0xE0) * 4096 + (b1 - 0x80) * 64 + (b2 - 0x80)), l, ?_, h.2⟩
        have hv := toNat_ofNat (n := (b0 - 0xE0) * 4096 + (b1 - 0x80) * 64 + (b2 - 0x80))
          (by omega)
        simp only [utf8Char, hv]
        rw [if_neg (by omega), if_neg (by omega), if_pos (by omega)]
        simp only [List.cons_append, List.nil_append]
        exact List.cons_eq_cons.2 ⟨by omega, List.cons_eq_cons.2 ⟨by omega, List.cons_eq_cons.2
          ⟨by omega, rfl⟩⟩⟩
    rw [if_neg h3] at h
    by_cases h4 : (0xF0 ≤ b0 && b0 ≤ 0xF4) = true
    · rw [if_pos h4] at h
      simp only [Bool.and_eq_true, decide_eq_true_eq] at h4
      match l, h with
      | b1 :: b2 :: b3 :: l, h =>
        simp only [Bool.and_eq_true, Bool.or_eq_true, beq_iff_eq, utf8Cont, decide_eq_true_eq] at h
        have hv := toNat_ofNat
          (n := (b0 - 0xF0) * 262144 + (b1 - 0x80) * 4096 + (b2 - 0x80) * 64 + (b3 - 0x80))
          (by omega)
        refine ⟨Char.ofNat
          ((b0 - 0xF0) * 262144 + (b1 - 0x80) * 4096 + (b2 - 0x80) * 64 + (b3 - 0x80)), l, ?_, h.2⟩
        simp only [utf8Char, hv]
        rw [if_neg (by omega), if_neg (by omega), if_neg (by omega)]
        simp only [List.cons_append, List.nil_append]
        exact List.cons_eq_cons.2 ⟨by omega, List.cons_eq_cons.2 ⟨by omega, List.cons_eq_cons.2
          ⟨by omega, List.cons_eq_cons.2 ⟨by omega, rfl⟩⟩⟩⟩
    · rw [if_neg h4] at h; exact absurd h (by simp)

theorem utf8Char_ne_nil (c : Char) : utf8Char c ≠ [] := by
  unfold utf8Char; simp only; split <;> try split <;> try split
  all_goals simp

theorem utf8Char_length_pos (c : Char) : 0 < (utf8Char c).length :=
  List.length_pos_iff.2 (utf8Char_ne_nil c)

/-- `from_utf8` accepts exactly the encodings of texts. -/
theorem from_utf8_iff (l : List Nat) : from_utf8 l = true ↔ ∃ t, l = utf8 t := by
  constructor
  · intro h
    induction hn : l.length using Nat.strongRecOn generalizing l with
    | ind n ih =>
      by_cases hl : l = []
      · exact ⟨[], hl⟩
      · obtain ⟨c, r, rfl, hr⟩ := from_utf8_step h hl
        have hp := utf8Char_length_pos c
        obtain ⟨t, rfl⟩ := ih r.length (by simp at hn; omega) r hr rfl
        exact ⟨c :: t, rfl⟩
  · rintro ⟨t, rfl⟩
    induction t with
    | nil => rw [utf8_nil, from_utf8]
    | cons c t ih => rw [utf8_cons, from_utf8_char, ih]

/-- `chars` is the inverse of the encoding. -/
theorem chars_utf8 (t : List Char) : chars (utf8 t) = t := by
  induction t with
  | nil => rw [utf8_nil, chars]
  | cons c t ih => rw [utf8_cons, chars_char, ih]

theorem utf8_injective {s t : List Char} (h : utf8 s = utf8 t) : s = t := by
  rw [← chars_utf8 s, h, chars_utf8]

/-! ### UTF-16 -/

theorem decode_utf16_char (c : Char) (l : List Nat) :
    decode_utf16 (utf16Char c ++ l) = some c :: decode_utf16 l := by
  have hc := char_bounds c
  have hn := ofNat_toNat c
  unfold utf16Char
  simp only
  generalize c.toNat = n at hc hn
  by_cases h1 : n < 0x10000
  · rw [if_pos h1, List.singleton_append, decode_utf16.eq_def]; dsimp only
    rw [if_pos ((surrogate_test n h1).2 (by omega)), hn]
  · rw [if_neg h1]
    simp only [List.cons_append, List.nil_append]
    rw [decode_utf16.eq_def]; dsimp only
    rw [if_neg (fun h => by have := (surrogate_test _ (by omega)).1 h; omega),
      if_neg (by omega)]
    rw [if_neg (by simp; omega), and_3FF, and_3FF, shl_or_10 _ _ (by omega), ← hn]
    congr 3; omega

theorem decode_utf16_utf16 (t : List Char) : decode_utf16 (utf16 t) = t.map some := by
  induction t with
  | nil => rw [utf16_nil, decode_utf16]; rfl
  | cons c t ih => rw [utf16_cons, decode_utf16_char, ih]; rfl

theorem utf16_injective {s t : List Char} (h : utf16 s = utf16 t) : s = t := by
  have := decode_utf16_utf16 s
  rw [h, decode_utf16_utf16] at this
  have h2 := congrArg (List.filterMap id) this
  simpa [List.filterMap_map] using h2.symm

end Verif
