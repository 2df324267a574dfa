import Verif.Props.Bits
/-
C168: telegrams protected by a cyclic redundancy check.
-/
namespace Verif
open Spec

/-- `IF crc.top THEN crc := SHL(crc, 1) XOR poly; ELSE crc := SHL(crc, 1); END_IF;` (src/bit_shift_functions.rs:6-29; `top` is the highest bit). -/
def crcShift (p : Profile) {w : Nat} (poly crc : BitVec w) : Res (BitVec w) := do
  let s ← SHL p crc 1
  pure (if crc.msb then s ^^^ poly else s)

/-- `FOR i := 1 TO n DO` the former `END_FOR;` -/
def crcShifts (p : Profile) {w : Nat} (poly : BitVec w) : Nat → BitVec w → Res (BitVec w)
  | 0, crc => pure crc
  | n + 1, crc => do
    let crc ← crcShift p poly crc
    crcShifts p poly n crc

/-- One byte: `crc := crc XOR SHL(byte, w - 8);` and eight shifts.  The byte is converted to the width of the word first. -/
def crcByte (p : Profile) {w : Nat} (poly crc : BitVec w) (byte : BitVec 8) : Res (BitVec w) := do
  let b ← SHL p (byte.setWidth w) (w - 8)
  crcShifts p poly 8 (crc ^^^ b)

/-- The check word of a telegram. -/
def crcOf (p : Profile) {w : Nat} (poly init : BitVec w) (telegram : List (BitVec 8)) : Res (BitVec w) := telegram.foldlM (crcByte p poly) init

namespace Spec

/-- The bits of a byte in the order in which they are sent: the highest one first. -/
def byteBits (b : BitVec 8) : List Bool := [b.getLsbD 7, b.getLsbD 6, b.getLsbD 5, b.getLsbD 4, b.getLsbD 3, b.getLsbD 2, b.getLsbD 1, b.getLsbD 0]

/-- The bits of a telegram. -/
def telegramBits (t : List (BitVec 8)) : List Bool := t.flatMap byteBits

/-- Two telegrams of the same length that differ, but only within `n` consecutive bits. -/
def Burst (n : Nat) (s t : List (BitVec 8)) : Prop :=
  s ≠ t ∧ ∃ front u v back, telegramBits s = front ++ u ++ back ∧ telegramBits t = front ++ v ++ back ∧ u.length = v.length ∧ u.length ≤ n

end Spec

/-! ### Bit by bit -/

/-- The same shift without the panics of `SHL`. -/
private def shift {w : Nat} (poly c : BitVec w) : BitVec w := if c.msb then (c <<< 1) ^^^ poly else c <<< 1

/-- Only the highest bit. -/
private def top (w : Nat) (b : Bool) : BitVec w := if b then BitVec.ofNat w (2 ^ (w - 1)) else 0#w

private def bitStep {w : Nat} (poly c : BitVec w) (b : Bool) : BitVec w := shift poly (c ^^^ top w b)

private def run {w : Nat} (poly : BitVec w) (c : BitVec w) (bs : List Bool) : BitVec w := bs.foldl (bitStep poly) c

/-- The bits from the highest one downwards. -/
private def packed (w : Nat) : List Bool → BitVec w
  | [] => 0#w
  | b :: bs => top w b ^^^ (packed w bs >>> 1)

private theorem crcShift_eq (p : Profile) {w : Nat} (hw : 1 < w) (poly c : BitVec w) : crcShift p poly c = .ok (shift poly c) := by
  simp [crcShift, SHL, shiftCount, hw, shift]

private theorem top_bit {w : Nat} (hw : 0 < w) (b : Bool) (i : Nat) : (top w b).getLsbD i = (b && decide (i = w - 1)) := by
  unfold top
  cases b
  · simp
  · simp only [if_true, Bool.true_and, BitVec.getLsbD_ofNat, Nat.testBit_two_pow]
    by_cases h : i = w - 1
    · subst h; simp; omega
    · simp [h]; omega

private theorem shift_xor {w : Nat} (poly a b : BitVec w) : shift poly (a ^^^ b) = shift poly a ^^^ shift poly b := by
  unfold shift
  rw [BitVec.msb_xor, BitVec.shiftLeft_xor_distrib]
  cases a.msb <;> cases b.msb <;> simp
  · ac_rfl
  · ac_rfl
  · have : (a <<< 1 ^^^ poly) ^^^ (b <<< 1 ^^^ poly) = (a <<< 1 ^^^ b <<< 1) ^^^ (poly ^^^ poly) := by ac_rfl
    rw [this, BitVec.xor_self, BitVec.xor_zero]

private theorem top_xor (w : Nat) (a b : Bool) : top w (a ^^ b) = top w a ^^^ top w b := by
  unfold top
  cases a <;> cases b <;> simp

private theorem run_xor {w : Nat} (poly : BitVec w) : ∀ (u v : List Bool) (a b : BitVec w), u.length = v.length →
    run poly a u ^^^ run poly b v = run poly (a ^^^ b) (List.zipWith (· ^^ ·) u v)
  | [], [], _, _, _ => rfl
  | x :: u, y :: v, a, b, h => by
    have ih := run_xor poly u v (bitStep poly a x) (bitStep poly b y) (by simpa using h)
    have e : bitStep poly a x ^^^ bitStep poly b y = bitStep poly (a ^^^ b) (x ^^ y) := by
      unfold bitStep
      rw [← shift_xor, top_xor]
      congr 1
      ac_rfl
    rw [e] at ih
    exact ih

private theorem shift_zero {w : Nat} (hw : 1 < w) {poly : BitVec w} (h0 : poly.getLsbD 0 = true) {c e : BitVec w} (h : shift poly c = e) (he : e.getLsbD 0 = false) :
    c = e >>> 1 := by
  unfold shift at h
  cases hm : c.msb with
  | true =>
    rw [hm, if_pos rfl] at h
    rw [← h, BitVec.getLsbD_xor, h0] at he
    simp at he
  | false =>
    rw [hm, if_neg (by simp)] at h
    refine BitVec.eq_of_getLsbD_eq fun i hi => ?_
    rw [← h, BitVec.getLsbD_ushiftRight, BitVec.getLsbD_shiftLeft]
    by_cases hiw : 1 + i < w
    · simp [hiw]
    · have : i = w - 1 := by omega
      subst this
      rw [BitVec.msb_eq_getLsbD_last] at hm
      simp [hm]

private theorem packed_low (w : Nat) (hw : 0 < w) : ∀ (bs : List Bool) (i : Nat), i + bs.length < w → (packed w bs).getLsbD i = false
  | [], i, _ => by simp [packed]
  | b :: bs, i, h => by
    rw [List.length_cons] at h
    rw [packed, BitVec.getLsbD_xor, top_bit hw, BitVec.getLsbD_ushiftRight, packed_low w hw bs (1 + i) (by omega)]
    simp; omega

/-- Which register becomes zero: the one that contains the bits to come. -/
private theorem run_zero {w : Nat} (hw : 1 < w) {poly : BitVec w} (h0 : poly.getLsbD 0 = true) : ∀ (bs : List Bool) (c : BitVec w), bs.length ≤ w → run poly c bs = 0#w → c = packed w bs
  | [], c, _, h => h
  | b :: bs, c, hl, h => by
    rw [List.length_cons] at hl
    have ih := run_zero hw h0 bs (bitStep poly c b) (by omega) h
    have := shift_zero hw h0 ih (packed_low w (by omega) bs 0 (by omega))
    rw [packed, ← this, BitVec.xor_comm c, ← BitVec.xor_assoc, BitVec.xor_self, BitVec.zero_xor]

private theorem packed_zero (w : Nat) (hw : 0 < w) : ∀ (bs : List Bool), bs.length ≤ w → packed w bs = 0#w → ∀ b ∈ bs, b = false
  | [], _, _, _, hb => by cases hb
  | x :: bs, hl, h, b, hb => by
    rw [List.length_cons] at hl
    have bit : ∀ i, (packed w (x :: bs)).getLsbD i = false := fun i => by rw [h]; simp
    have hx : x = false := by
      have := bit (w - 1)
      rw [packed, BitVec.getLsbD_xor, top_bit hw, BitVec.getLsbD_ushiftRight, BitVec.getLsbD_of_ge _ (1 + (w - 1)) (by omega)] at this
      simpa using this
    subst hx
    rcases List.mem_cons.1 hb with rfl | hb
    · rfl
    · refine packed_zero w hw bs (by omega) ?_ b hb
      refine BitVec.eq_of_getLsbD_eq fun i hi => ?_
      cases i with
      | zero => rw [packed_low w hw bs 0 (by omega)]; simp
      | succ i =>
        have := bit i
        rw [packed, BitVec.getLsbD_xor, top_bit hw, BitVec.getLsbD_ushiftRight, Nat.add_comm 1 i] at this
        simpa using this

private theorem run_burst {w : Nat} (hw : 1 < w) {poly : BitVec w} (h0 : poly.getLsbD 0 = true) (u v : List Bool) (h : u.length = v.length) (hl : u.length ≤ w) (c : BitVec w)
    (he : run poly c u = run poly c v) : u = v := by
  have e : run poly c u ^^^ run poly c v = 0#w := by rw [he, BitVec.xor_self]
  rw [run_xor poly u v c c h, BitVec.xor_self] at e
  have hz := run_zero hw h0 _ _ (by rw [List.length_zipWith]; omega) e
  have hall := packed_zero w (by omega) _ (by rw [List.length_zipWith]; omega) hz.symm
  clear e hz he hl
  induction u generalizing v with
  | nil => cases v with
    | nil => rfl
    | cons y v => cases h
  | cons x u ih => cases v with
    | nil => cases h
    | cons y v =>
      have h1 := hall (x ^^ y) (by simp)
      have h2 := ih v (by simpa using h) fun b hb => hall b (by simp only [List.zipWith_cons_cons]; exact List.mem_cons_of_mem _ hb)
      rw [h2]
      congr 1
      revert h1; cases x <;> cases y <;> simp

private theorem run_injective {w : Nat} (hw : 1 < w) {poly : BitVec w} (h0 : poly.getLsbD 0 = true) : ∀ (bs : List Bool) (a b : BitVec w), run poly a bs = run poly b bs → a = b
  | [], _, _, h => h
  | x :: bs, a, b, h => by
    have h1 : bitStep poly a x = bitStep poly b x := run_injective hw h0 bs _ _ h
    unfold bitStep at h1
    have e : shift poly ((a ^^^ top w x) ^^^ (b ^^^ top w x)) = 0#w := by rw [shift_xor, h1, BitVec.xor_self]
    have := shift_zero hw h0 e (by simp)
    have e2 : (a ^^^ top w x) ^^^ (b ^^^ top w x) = a ^^^ b := by
      have : (a ^^^ top w x) ^^^ (b ^^^ top w x) = (a ^^^ b) ^^^ (top w x ^^^ top w x) := by ac_rfl
      rw [this, BitVec.xor_self, BitVec.xor_zero]
    rw [e2] at this
    have h3 : a ^^^ b = 0#w := by rw [this]; simp
    have h4 : a ^^^ b ^^^ b = b := by rw [h3, BitVec.zero_xor]
    rwa [BitVec.xor_assoc, BitVec.xor_self, BitVec.xor_zero] at h4

/-! ### Byte by byte -/

private theorem shifts_packed (p : Profile) {w : Nat} (hw : 1 < w) (poly : BitVec w) : ∀ (bs : List Bool) (c : BitVec w), bs.length ≤ w →
    crcShifts p poly bs.length (c ^^^ packed w bs) = .ok (run poly c bs)
  | [], c, _ => by rw [packed, BitVec.xor_zero]; rfl
  | b :: bs, c, hl => by
    rw [List.length_cons] at hl
    rw [List.length_cons, crcShifts, crcShift_eq p hw, Res.bind_ok]
    have e : shift poly (packed w bs >>> 1) = packed w bs := by
      have hm : (packed w bs >>> 1).msb = false := by
        rw [BitVec.msb_eq_getLsbD_last, BitVec.getLsbD_ushiftRight, BitVec.getLsbD_of_ge _ _ (by omega)]
      unfold shift
      rw [hm, if_neg (by simp)]
      refine BitVec.eq_of_getLsbD_eq fun i hi => ?_
      rw [BitVec.getLsbD_shiftLeft, BitVec.getLsbD_ushiftRight]
      cases i with
      | zero => rw [packed_low w (by omega) bs 0 (by omega)]; simp
      | succ i => rw [show 1 + (i + 1 - 1) = i + 1 by omega]; simp; intro; omega
    rw [packed, ← BitVec.xor_assoc, shift_xor, e]
    exact shifts_packed p hw poly bs _ (by omega)

private theorem packed_bit (w : Nat) (hw : 0 < w) : ∀ (bs : List Bool) (j : Nat), j < w → (packed w bs).getLsbD (w - 1 - j) = (bs[j]?).getD false
  | [], j, _ => by simp [packed]
  | b :: bs, 0, _ => by
    rw [packed, BitVec.getLsbD_xor, top_bit hw, BitVec.getLsbD_ushiftRight, BitVec.getLsbD_of_ge _ _ (by omega)]; simp
  | b :: bs, j + 1, h => by
    rw [packed, BitVec.getLsbD_xor, top_bit hw, BitVec.getLsbD_ushiftRight, show 1 + (w - 1 - (j + 1)) = w - 1 - j by omega, packed_bit w hw bs j (by omega),
      List.getElem?_cons_succ]
    have : ¬ w - 1 - (j + 1) = w - 1 := by omega
    simp [this]

private theorem packed_byte {w : Nat} (hw : 8 ≤ w) (b : BitVec 8) : packed w (byteBits b) = (b.setWidth w) <<< (w - 8) := by
  refine BitVec.eq_of_getLsbD_eq fun i hi => ?_
  obtain ⟨j, hj, rfl⟩ : ∃ j, j < w ∧ i = w - 1 - j := ⟨w - 1 - i, by omega, by omega⟩
  rw [packed_bit w (by omega) _ j hj, BitVec.getLsbD_shiftLeft, BitVec.getLsbD_setWidth]
  by_cases h : j < 8
  · rw [show w - 1 - j - (w - 8) = 7 - j by omega, decide_eq_true hi, decide_eq_false (show ¬ w - 1 - j < w - 8 by omega), decide_eq_true (show 7 - j < w by omega)]
    have : j = 0 ∨ j = 1 ∨ j = 2 ∨ j = 3 ∨ j = 4 ∨ j = 5 ∨ j = 6 ∨ j = 7 := by omega
    rcases this with rfl | rfl | rfl | rfl | rfl | rfl | rfl | rfl <;> simp [byteBits]
  · rw [decide_eq_true (show w - 1 - j < w - 8 by omega), List.getElem?_eq_none (by simp [byteBits]; omega)]; simp

private theorem crcByte_eq (p : Profile) {w : Nat} (hw : 8 ≤ w) (poly c : BitVec w) (b : BitVec 8) : crcByte p poly c b = .ok (run poly c (byteBits b)) := by
  have e : SHL p (b.setWidth w) (w - 8) = .ok ((b.setWidth w) <<< (w - 8)) := by simp [SHL, shiftCount, show w - 8 < w by omega]
  rw [crcByte, e, Res.bind_ok, ← packed_byte hw]
  exact shifts_packed p (by omega) poly (byteBits b) c (by simp [byteBits]; omega)

private theorem crcOf_eq (p : Profile) {w : Nat} (hw : 8 ≤ w) (poly : BitVec w) : ∀ (t : List (BitVec 8)) (c : BitVec w), crcOf p poly c t = .ok (run poly c (telegramBits t))
  | [], _ => rfl
  | b :: t, c => by
    have ih := crcOf_eq p hw poly t (run poly c (byteBits b))
    unfold crcOf at ih ⊢
    rw [List.foldlM_cons, crcByte_eq p hw, Res.bind_ok, ih]
    unfold run telegramBits
    rw [List.flatMap_cons, List.foldl_append]

private theorem byteBits_injective {a b : BitVec 8} (h : byteBits a = byteBits b) : a = b := by
  simp only [byteBits, List.cons.injEq, and_true] at h
  obtain ⟨h7, h6, h5, h4, h3, h2, h1, h0⟩ := h
  refine BitVec.eq_of_getLsbD_eq fun i hi => ?_
  have : i = 0 ∨ i = 1 ∨ i = 2 ∨ i = 3 ∨ i = 4 ∨ i = 5 ∨ i = 6 ∨ i = 7 := by omega
  rcases this with rfl | rfl | rfl | rfl | rfl | rfl | rfl | rfl <;> assumption

private theorem telegramBits_injective : ∀ {s t : List (BitVec 8)}, telegramBits s = telegramBits t → s = t
  | [], [], _ => rfl
  | [], b :: t, h => by simp [telegramBits, byteBits] at h
  | a :: s, [], h => by simp [telegramBits, byteBits] at h
  | a :: s, b :: t, h => by
    unfold telegramBits at h
    rw [List.flatMap_cons, List.flatMap_cons] at h
    obtain ⟨h1, h2⟩ := List.append_inj h rfl
    rw [byteBits_injective h1, telegramBits_injective h2]

/-- **C168**, computing: the check word of every telegram can be computed; nothing panics. -/
theorem C168_total (p : Profile) {w : Nat} (hw : 8 ≤ w) (poly init : BitVec w) (t : List (BitVec 8)) : ∃ c, crcOf p poly init t = .ok c := ⟨_, crcOf_eq p hw poly t init⟩

/-- **C168**: two telegrams that differ only within as many consecutive bits as the check word has never have the same check word, wherever the difference is and however long the telegrams are.  The
polynomial has to be odd (all polynomials in use are). -/
theorem C168_burst (p : Profile) {w : Nat} (hw : 8 ≤ w) (poly init : BitVec w) (hodd : poly.getLsbD 0 = true) (s t : List (BitVec 8)) (h : Burst w s t) :
    ∃ a b, crcOf p poly init s = .ok a ∧ crcOf p poly init t = .ok b ∧ a ≠ b := by
  refine ⟨_, _, crcOf_eq p hw poly s init, crcOf_eq p hw poly t init, ?_⟩
  obtain ⟨hne, front, u, v, back, hs, ht, hl, hn⟩ := h
  intro he
  rw [hs, ht] at he
  unfold run at he
  rw [List.foldl_append, List.foldl_append, List.foldl_append, List.foldl_append] at he
  have h1 := run_injective (by omega) hodd back _ _ he
  have h2 := run_burst (by omega) hodd u v hl hn _ h1
  exact hne (telegramBits_injective (by rw [hs, ht, h2]))

/-- **C168**, one bit: a telegram and the same telegram with one bit inverted. -/
theorem C168_one_bit (p : Profile) {w : Nat} (hw : 8 ≤ w) (poly init : BitVec w) (hodd : poly.getLsbD 0 = true) (front back : List (BitVec 8)) (b : BitVec 8) (i : Nat) (hi : i < 8) :
    ∃ x y, crcOf p poly init (front ++ b :: back) = .ok x ∧ crcOf p poly init (front ++ (b ^^^ (1#8 <<< i)) :: back) = .ok y ∧ x ≠ y := by
  refine C168_burst p hw poly init hodd _ _ ⟨?_, telegramBits front, byteBits b, byteBits (b ^^^ (1#8 <<< i)), telegramBits back, ?_, ?_, rfl, hw⟩
  · intro h
    have h1 := (List.cons.inj (List.append_cancel_left h)).1
    have h2 : b ^^^ b = b ^^^ (b ^^^ (1#8 <<< i)) := by rw [← h1]
    rw [BitVec.xor_self, ← BitVec.xor_assoc, BitVec.xor_self, BitVec.zero_xor] at h2
    have := congrArg (fun x => x.getLsbD i) h2
    simp [hi] at this
  · simp [telegramBits]
  · simp [telegramBits]

/-- **C168**, limits: a difference of one bit more can remain unnoticed (the polynomial itself in front of the telegram), and with an even polynomial a difference within sixteen bits can. -/
theorem C168_limits (p : Profile) : crcOf p 0x1021#16 0#16 [0x00#8, 0x00#8, 0x00#8] = crcOf p 0x1021#16 0#16 [0x01#8, 0x10#8, 0x21#8] ∧
    crcOf p 0x1020#16 0#16 [0x88#8, 0x10#8] = crcOf p 0x1020#16 0#16 [0x00#8, 0x00#8] := by
  cases p <;> decide +kernel

/-! ### Cases -/

-- the check value of CRC-16/CCITT-FALSE and of CRC-16/XMODEM for '123456789'
example : crcOf .debug 0x1021#16 0xFFFF#16 [0x31#8, 0x32#8, 0x33#8, 0x34#8, 0x35#8, 0x36#8, 0x37#8, 0x38#8, 0x39#8] = .ok 0x29B1#16 := by decide +kernel
example : crcOf .release 0x1021#16 0#16 [0x31#8, 0x32#8, 0x33#8, 0x34#8, 0x35#8, 0x36#8, 0x37#8, 0x38#8, 0x39#8] = .ok 0x31C3#16 := by decide +kernel
-- sixteen bits over three bytes
example : Burst 16 [0x12#8, 0x34#8, 0x56#8] [0x1A#8, 0xFF#8, 0x66#8] :=
  ⟨by decide, [false, false, false, true], [false, false, true, false, false, false, true, true, false, true, false, false, false, true, false, true],
    [true, false, true, false, true, true, true, true, true, true, true, true, false, true, true, false], [false, true, true, false], by decide, by decide, rfl, by decide⟩

end Verif
