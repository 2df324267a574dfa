import Verif.Props.Bits
/-
C121: how the shift and rotate functions combine, with each other, with BCD numbers and with the byte order functions.
-/
namespace Verif
open Spec

private theorem shl_ok (p : Profile) {w : Nat} (x : BitVec w) {n : Nat} (hn : n < w) : SHL p x n = .ok (x <<< n) := by
  simp [SHL, shiftCount, hn]
private theorem shr_ok (p : Profile) {w : Nat} (x : BitVec w) {n : Nat} (hn : n < w) : SHR p x n = .ok (x >>> n) := by
  simp [SHR, shiftCount, hn]

/-- **C121.** Shifting twice in the same direction is shifting once by the sum, as long as the sum is below the width. -/
theorem C121_shift_twice (p : Profile) {w : Nat} (x : BitVec w) (m n : Nat) (h : m + n < w) :
    (∃ y z, SHL p x m = .ok y ∧ SHL p y n = .ok z ∧ SHL p x (m + n) = .ok z) ∧
    (∃ y z, SHR p x m = .ok y ∧ SHR p y n = .ok z ∧ SHR p x (m + n) = .ok z) := by
  refine ⟨⟨_, _, shl_ok p x (by omega), shl_ok p _ (by omega), ?_⟩,
    ⟨_, _, shr_ok p x (by omega), shr_ok p _ (by omega), ?_⟩⟩
  · rw [shl_ok p x h, BitVec.shiftLeft_add]
  · rw [shr_ok p x h, BitVec.shiftRight_add]

/-- **C121.** Shifting left and back keeps the low `w - n` bits and clears the others; shifting right and back clears
the low `n` bits and keeps the others. -/
theorem C121_shift_back (p : Profile) {w : Nat} (x : BitVec w) (n : Nat) (h : n < w) :
    (∃ y z, SHL p x n = .ok y ∧ SHR p y n = .ok z ∧ z.toNat = x.toNat % 2 ^ (w - n) ∧
      (z = x ↔ x.toNat < 2 ^ (w - n))) ∧
    (∃ y z, SHR p x n = .ok y ∧ SHL p y n = .ok z ∧ z.toNat = x.toNat / 2 ^ n * 2 ^ n ∧
      (z = x ↔ 2 ^ n ∣ x.toNat)) := by
  have hw : 2 ^ w = 2 ^ n * 2 ^ (w - n) := by rw [← Nat.pow_add]; congr 1; omega
  have hp : 0 < 2 ^ n := Nat.two_pow_pos n
  have hq : 0 < 2 ^ (w - n) := Nat.two_pow_pos _
  have e1 : ((x <<< n) >>> n).toNat = x.toNat % 2 ^ (w - n) := by
    rw [BitVec.toNat_ushiftRight, BitVec.toNat_shiftLeft, Nat.shiftLeft_eq, Nat.shiftRight_eq_div_pow, hw,
      Nat.mul_comm x.toNat, Nat.mul_mod_mul_left, Nat.mul_div_cancel_left _ hp]
  have e2 : ((x >>> n) <<< n).toNat = x.toNat / 2 ^ n * 2 ^ n := by
    rw [BitVec.toNat_shiftLeft, BitVec.toNat_ushiftRight, Nat.shiftLeft_eq, Nat.shiftRight_eq_div_pow]
    exact Nat.mod_eq_of_lt (Nat.lt_of_le_of_lt (Nat.div_mul_le_self _ _) x.isLt)
  refine ⟨⟨_, _, shl_ok p x h, shr_ok p _ h, e1, ?_⟩, ⟨_, _, shr_ok p x h, shl_ok p _ h, e2, ?_⟩⟩
  · rw [← BitVec.toNat_inj, e1]
    constructor
    · intro e; rw [← e]; exact Nat.mod_lt _ hq
    · exact Nat.mod_eq_of_lt
  · rw [← BitVec.toNat_inj, e2]
    constructor
    · intro e; rw [← e]; exact Nat.dvd_mul_left _ _
    · exact Nat.div_mul_cancel

example : SHL .debug 0b11010110#8 3 = .ok 0b10110000#8 ∧ SHR .debug 0b10110000#8 3 = .ok 0b00010110#8 ∧
    0b11010110 % 2 ^ 5 = 0b00010110 := by decide

/-- **C121.** A rotation is the OR of two shifts: ROL(x, n) = SHL(x, n) OR SHR(x, w - n) and
ROR(x, n) = SHR(x, n) OR SHL(x, w - n), for 0 < n < w. -/
theorem C121_rotate_by_shifts (p : Profile) {w : Nat} (x : BitVec w) (n : Nat) (h0 : 0 < n) (h : n < w) :
    (∃ a b, SHL p x n = .ok a ∧ SHR p x (w - n) = .ok b ∧ ROL x n = a ||| b) ∧
    (∃ a b, SHR p x n = .ok a ∧ SHL p x (w - n) = .ok b ∧ ROR x n = a ||| b) := by
  refine ⟨⟨_, _, shl_ok p x h, shr_ok p x (by omega), ?_⟩, ⟨_, _, shr_ok p x h, shl_ok p x (by omega), ?_⟩⟩
  · rw [ROL, BitVec.rotateLeft, Nat.mod_eq_of_lt h]; rfl
  · rw [ROR, BitVec.rotateRight, Nat.mod_eq_of_lt h]; rfl

/-- **C121.** Rotating left by `n` is rotating right by `w - n`. -/
theorem C121_rol_ror {w : Nat} (x : BitVec w) (n : Nat) (h : n ≤ w) : ROL x n = ROR x (w - n) := by
  have h1 := (C24_ror_rol x n).1
  have h2 := (C24_rotations_compose (ROL x n) n (w - n)).2.1
  rw [h1] at h2
  rw [h2, show n + (w - n) = w by omega]
  have h3 := (C24_rotations_compose (ROL x n) 0 w).2.2.2
  rw [Nat.mod_self] at h3
  rw [← h3]
  have h4 := (C24_ror_rol (ROL x n) 0).2
  simp [ROR, BitVec.rotateRight, BitVec.rotateRightAux]

/-- **C121.** ROL and ROR of a sum of counts that is a multiple of the width give the value back. -/
theorem C121_full_turn {w : Nat} (x : BitVec w) (m n : Nat) (h : w ∣ m + n) : ROL (ROL x m) n = x ∧ ROR (ROR x m) n = x := by
  obtain ⟨a, b, c, d⟩ := C24_rotations_compose x m n
  obtain ⟨-, -, c, d⟩ := C24_rotations_compose x 0 (m + n)
  rw [Nat.mod_eq_zero_of_dvd h] at c d
  rw [a, b, ← c, ← d]
  have e1 : ROL x 0 = x := by
    have hz : x >>> w = 0#w := by
      apply BitVec.eq_of_toNat_eq
      rw [BitVec.toNat_ushiftRight, Nat.shiftRight_eq_div_pow, Nat.div_eq_of_lt x.isLt]
      rfl
    simp [ROL, BitVec.rotateLeft, BitVec.rotateLeftAux, hz]
  have e2 : ROR x 0 = x := by simp [ROR, BitVec.rotateRight, BitVec.rotateRightAux]
  exact ⟨e1, e2⟩

example : ROL 0b10010110#8 3 = 0b10110100#8 ∧ ROL 0b10110100#8 5 = 0b10010110#8 ∧ 8 ∣ 3 + 5 := by decide

/-! ### BCD -/

private theorem encode_lt (d : Nat) : ∀ v, bcdEncode d v < 16 ^ d := by
  induction d with
  | zero => intro v; simp [bcdEncode]
  | succ d ih =>
    intro v
    have := ih (v / 10)
    rw [bcdEncode, Nat.pow_succ]
    omega

private theorem encode_mod (d : Nat) : ∀ v, bcdEncode d (v % 10 ^ d) = bcdEncode d v := by
  induction d with
  | zero => intro v; rfl
  | succ d ih =>
    intro v
    rw [bcdEncode, bcdEncode, Nat.pow_succ, Nat.mod_mod_of_dvd _ (Nat.dvd_mul_left 10 (10 ^ d)), Nat.mul_comm (10 ^ d),
      Nat.mod_mul_right_div_self, ih]

/-- The lower `d` digits of a `d+1`-digit encoding. -/
private theorem encode_low (d : Nat) : ∀ v, bcdEncode (d + 1) v % 16 ^ d = bcdEncode d v := by
  induction d with
  | zero => intro v; simp [bcdEncode]; omega
  | succ d ih =>
    intro v
    rw [bcdEncode, Nat.pow_succ, Nat.mul_comm (16 ^ d) 16, Nat.mod_mul]
    rw [show (v % 10 + 16 * bcdEncode (d + 1) (v / 10)) % 16 = v % 10 by omega,
      show (v % 10 + 16 * bcdEncode (d + 1) (v / 10)) / 16 = bcdEncode (d + 1) (v / 10) by omega, ih]
    rfl

private theorem encode_top (d : Nat) : ∀ v, bcdEncode (d + 1) v / 16 = bcdEncode d (v / 10) := by
  intro v; rw [bcdEncode]; omega

/-- **C121**, BCD: if `x` holds a decimal number `v` in BCD, SHR(x, 4) holds `v / 10` and SHL(x, 4) holds `v * 10`
without its first digit. Both are valid BCD words. -/
theorem C121_bcd_shift (p : Profile) (size : Nat) (hs : 0 < size) (x : BitVec (8 * size)) (v : Nat)
    (hx : x.toNat = bcdEncode (2 * size) v) (hv : v < 10 ^ (2 * size)) :
    ∃ a b, SHR p x 4 = .ok a ∧ SHL p x 4 = .ok b ∧
      a.toNat = bcdEncode (2 * size) (v / 10) ∧
      b.toNat = bcdEncode (2 * size) (v * 10 % 10 ^ (2 * size)) ∧
      is_valid_bcd size a = true ∧ is_valid_bcd size b = true := by
  obtain ⟨b, a, h1, h2, h3, h4⟩ := C22_shl_shr p x 4 (by omega)
  have hpow : (2:Nat) ^ (8 * size) = 16 ^ (2 * size) := by
    rw [show 8 * size = 4 * (2 * size) by omega, Nat.pow_mul]
  obtain ⟨d, hd⟩ : ∃ d, 2 * size = d + 1 := ⟨2 * size - 1, by omega⟩
  have ea : a.toNat = bcdEncode (2 * size) (v / 10) := by
    rw [h4, hx, show (2:Nat) ^ 4 = 16 by rfl, hd, encode_top]
    have hlt : v / 10 < 10 ^ d := by
      rw [hd, Nat.pow_succ] at hv; omega
    have h0 := encode_low d (v / 10)
    have hz : ∀ d u, u < 10 ^ d → bcdEncode (d + 1) u = bcdEncode d u := by
      intro d
      induction d with
      | zero => intro u hu; simp at hu; subst hu; rfl
      | succ d ih =>
        intro u hu
        rw [bcdEncode, ih (u / 10) (by rw [Nat.pow_succ] at hu; omega), ← bcdEncode]
    rw [hz d _ hlt]
  have eb : b.toNat = bcdEncode (2 * size) (v * 10 % 10 ^ (2 * size)) := by
    rw [h3, hx, hpow, encode_mod, show (2:Nat) ^ 4 = 16 by rfl, hd, Nat.pow_succ, Nat.mul_mod_mul_right, encode_low,
      bcdEncode, show v * 10 % 10 = 0 by omega, show v * 10 / 10 = v by omega]
    omega
  refine ⟨a, b, h2, h1, ea, eb, ?_, ?_⟩
  · exact ((C25_bcd_encoding size hs a).1).2 ⟨v / 10, by omega, ea⟩
  · exact ((C25_bcd_encoding size hs b).1).2 ⟨_, Nat.mod_lt _ (Nat.pow_pos (by omega)), eb⟩

/-- The word 16#1987 holds 1987. -/
example : (0x1987#(8 * 2)).toNat = bcdEncode 4 1987 ∧ SHR .debug 0x1987#(8 * 2) 4 = .ok 0x198#(8 * 2) ∧
    SHL .debug 0x1987#(8 * 2) 4 = .ok 0x9870#(8 * 2) := by decide

/-- **C121**, BCD: rotating a valid BCD word by whole digits gives a valid BCD word. -/
theorem C121_bcd_rotate (size : Nat) (hs : 0 < size) (x : BitVec (8 * size)) (k : Nat) (h : is_valid_bcd size x = true) :
    is_valid_bcd size (ROL x (4 * k)) = true ∧ is_valid_bcd size (ROR x (4 * k)) = true := by
  -- one digit is the four bits above it
  have digit : ∀ (y : BitVec (8 * size)) j, j < 2 * size → y.toNat / 16 ^ j % 16 =
      (y.getLsbD (4 * j)).toNat + 2 * (y.getLsbD (4 * j + 1)).toNat + 4 * (y.getLsbD (4 * j + 2)).toNat +
        8 * (y.getLsbD (4 * j + 3)).toNat := by
    intro y j _
    have e : (16:Nat) ^ j = 2 ^ (4 * j) := by rw [Nat.pow_mul]
    have hb : ∀ i, (y.getLsbD (4 * j + i)).toNat = y.toNat / 2 ^ (4 * j) / 2 ^ i % 2 := by
      intro i
      rw [BitVec.getLsbD, Nat.testBit_eq_decide_div_mod_eq, Nat.pow_add, ← Nat.div_div_eq_div_mul]
      have := Nat.mod_two_eq_zero_or_one (y.toNat / 2 ^ (4 * j) / 2 ^ i)
      rcases this with h | h <;> simp [h]
    have h0 := hb 0
    rw [Nat.add_zero] at h0
    rw [h0, hb 1, hb 2, hb 3, e]
    generalize y.toNat / 2 ^ (4 * j) = z
    simp only [Nat.pow_zero, Nat.div_one]
    omega
  have hror : ∀ (y : BitVec (8 * size)) k, is_valid_bcd size y = true → is_valid_bcd size (ROR y (4 * k)) = true := by
    intro y k hy
    rw [C25_bcd_digits size hs] at hy ⊢
    intro j hj
    have hi : ∀ i, i < 4 → (ROR y (4 * k)).getLsbD (4 * j + i) = y.getLsbD (4 * ((j + k) % (2 * size)) + i) := by
      intro i hi
      rw [C24_ror_bits _ _ _ (by omega)]
      congr 1
      have h1 : (4 * j + i + 4 * k) = 4 * (j + k) + i := by omega
      rw [h1, show 8 * size = 4 * (2 * size) by omega, Nat.mod_mul]
      rw [show (4 * (j + k) + i) % 4 = i by omega, show (4 * (j + k) + i) / 4 = j + k by omega]
      omega
    have hlt : (j + k) % (2 * size) < 2 * size := Nat.mod_lt _ (by omega)
    have := hy _ hlt
    rw [digit _ _ hlt] at this
    rw [digit _ _ hj]
    have h0 := hi 0 (by omega)
    simp only [Nat.add_zero] at h0
    rw [h0, hi 1 (by omega), hi 2 (by omega), hi 3 (by omega)]
    exact this
  refine ⟨?_, hror x k h⟩
  have e : ROL x (4 * k) = ROR x (4 * (2 * size - k % (2 * size))) := by
    have hk : k % (2 * size) < 2 * size := Nat.mod_lt _ (by omega)
    have hm : 4 * k % (8 * size) = 4 * (k % (2 * size)) := by
      rw [show 8 * size = 4 * (2 * size) by omega, Nat.mul_mod_mul_left]
    rw [← (C24_rotations_compose x 0 (4 * k)).2.2.1, hm, C121_rol_ror x _ (by omega)]
    congr 1; omega
  rw [e]; exact hror x _ h

example : is_valid_bcd 2 0x1987#(8 * 2) = true ∧ ROL 0x1987#(8 * 2) (4 * 1) = 0x9871#(8 * 2) := by decide +kernel

/-! ### Byte order -/

/-- **C121**, byte order: where the byte order functions swap the bytes of a WORD, they do what ROL and ROR by 8 do. -/
theorem C121_word_swap (x : BitVec 16) :
    TO_BIG_ENDIAN .little 2 x.toNat = (ROL x 8).toNat ∧ FROM_LITTLE_ENDIAN .little 2 x.toNat = (ROL x 8).toNat ∧
    TO_LITTLE_ENDIAN .big 2 x.toNat = (ROL x 8).toNat ∧ FROM_BIG_ENDIAN .big 2 x.toNat = (ROL x 8).toNat ∧
    ROL x 8 = ROR x 8 := by
  have hx := x.isLt
  have e : swapBytes 2 x.toNat = (ROL x 8).toNat := by
    obtain ⟨⟨a, b, ha, hb, h⟩, -⟩ := C121_rotate_by_shifts .debug x 8 (by omega) (by omega)
    obtain ⟨a', b', ha', -, h1, -⟩ := C22_shl_shr .debug x 8 (by omega)
    obtain ⟨-, b'', -, hb'', -, h2⟩ := C22_shl_shr .debug x 8 (by omega)
    have ea := Res.ok.inj (ha.symm.trans ha')
    have eb := Res.ok.inj (hb.symm.trans hb'')
    subst ea eb
    rw [h, BitVec.toNat_or, h1, h2]
    have hor : x.toNat * 2 ^ 8 % 2 ^ 16 ||| x.toNat / 2 ^ 8 = x.toNat * 2 ^ 8 % 2 ^ 16 + x.toNat / 2 ^ 8 := by
      rw [show x.toNat * 2 ^ 8 % 2 ^ 16 = 2 ^ 8 * (x.toNat % 2 ^ 8) by omega]
      exact (Nat.two_pow_add_eq_or_of_lt (by omega) _).symm
    rw [hor, show x.toNat * 2 ^ 8 % 2 ^ 16 = 2 ^ 8 * (x.toNat % 2 ^ 8) by omega]
    simp only [swapBytes, toLeBytes, fromLeBytes, List.reverse_cons, List.reverse_nil, List.nil_append, List.cons_append]
    omega
  exact ⟨e, e, e, e, C121_rol_ror x 8 (by omega)⟩

example : TO_BIG_ENDIAN .little 2 0x1234 = 0x3412 ∧ ROL 0x1234#16 8 = 0x3412#16 := by decide

end Verif
