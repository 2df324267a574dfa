import Verif.Props.Bits
/-
C167: positions in Gray code.
-/
namespace Verif
open Spec

/-- `g := x XOR SHR(x, 1);` (src/bit_shift_functions.rs:34-57). -/
def toGray (p : Profile) {w : Nat} (x : BitVec w) : Res (BitVec w) := do
  let h ← SHR p x 1
  pure (x ^^^ h)

/-- `FOR n := 1 TO k DO t := SHR(t, 1); y := y XOR t; END_FOR;` -/
def fromGrayLoop (p : Profile) {w : Nat} : Nat → BitVec w → BitVec w → Res (BitVec w)
  | 0, _, y => pure y
  | k + 1, t, y => do
    let t ← SHR p t 1
    fromGrayLoop p k t (y ^^^ t)

/-- `y := g; t := g;` and the loop, `w - 1` times for a word of `w` bits. -/
def fromGray (p : Profile) {w : Nat} (g : BitVec w) : Res (BitVec w) := fromGrayLoop p (w - 1) g g

/-- A word that is read while its bits change from those of `a` to those of `b`: each bit is the old one or the new one. -/
def Between {w : Nat} (a b r : BitVec w) : Prop := ∀ i, r.getLsbD i = a.getLsbD i ∨ r.getLsbD i = b.getLsbD i

private theorem shr_one (p : Profile) {w : Nat} (hw : 1 < w) (x : BitVec w) : SHR p x 1 = .ok (x >>> 1) := by
  simp [SHR, shiftCount, hw]

private theorem toGray_eq (p : Profile) {w : Nat} (hw : 1 < w) (x : BitVec w) : toGray p x = .ok (x ^^^ (x >>> 1)) := by
  rw [toGray, shr_one p hw]; rfl

private theorem loop_of_encode (p : Profile) {w : Nat} (hw : 1 < w) (x : BitVec w) : ∀ (k j : Nat),
    fromGrayLoop p k ((x >>> j) ^^^ (x >>> (j + 1))) (x ^^^ (x >>> (j + 1))) = .ok (x ^^^ (x >>> (j + k + 1)))
  | 0, j => rfl
  | k + 1, j => by
    rw [fromGrayLoop, shr_one p hw, Res.bind_ok]
    have e : ((x >>> j) ^^^ (x >>> (j + 1))) >>> 1 = (x >>> (j + 1)) ^^^ (x >>> (j + 1 + 1)) := by
      rw [BitVec.ushiftRight_xor_distrib, ← BitVec.shiftRight_add, ← BitVec.shiftRight_add]
    have e2 : x ^^^ (x >>> (j + 1)) ^^^ ((x >>> (j + 1)) ^^^ (x >>> (j + 1 + 1))) = x ^^^ (x >>> (j + 1 + 1)) := by
      rw [BitVec.xor_assoc, ← BitVec.xor_assoc (x >>> (j + 1)), BitVec.xor_self, BitVec.zero_xor]
    rw [e, e2, loop_of_encode p hw x k (j + 1), show j + 1 + k + 1 = j + (k + 1) + 1 by omega]

private theorem loop_encodes (p : Profile) {w : Nat} (hw : 1 < w) (g : BitVec w) : ∀ (k j : Nat) (y : BitVec w), y ^^^ (y >>> 1) = g ^^^ (g >>> (j + 1)) →
    ∃ y', fromGrayLoop p k (g >>> j) y = .ok y' ∧ y' ^^^ (y' >>> 1) = g ^^^ (g >>> (j + k + 1))
  | 0, j, y, h => ⟨y, rfl, h⟩
  | k + 1, j, y, h => by
    obtain ⟨y', h1, h2⟩ := loop_encodes p hw g k (j + 1) (y ^^^ (g >>> (j + 1))) (by
      rw [BitVec.ushiftRight_xor_distrib, ← BitVec.shiftRight_add]
      have : y ^^^ (g >>> (j + 1)) ^^^ ((y >>> 1) ^^^ (g >>> (j + 1 + 1))) = (y ^^^ (y >>> 1)) ^^^ (g >>> (j + 1)) ^^^ (g >>> (j + 1 + 1)) := by ac_rfl
      rw [this, h, BitVec.xor_assoc g, BitVec.xor_self, BitVec.xor_zero])
    refine ⟨y', ?_, by rw [h2, show j + 1 + k + 1 = j + (k + 1) + 1 by omega]⟩
    rw [fromGrayLoop, shr_one p hw, Res.bind_ok, ← BitVec.shiftRight_add, h1]

/-- **C167**, no position is lost: decoding undoes encoding and encoding undoes decoding; nothing panics. -/
theorem C167_round_trip (p : Profile) {w : Nat} (hw : 1 < w) (x : BitVec w) :
    (∃ g, toGray p x = .ok g ∧ fromGray p g = .ok x) ∧ ∃ y, fromGray p x = .ok y ∧ toGray p y = .ok x := by
  refine ⟨⟨_, toGray_eq p hw x, ?_⟩, ?_⟩
  · have := loop_of_encode p hw x (w - 1) 0
    rw [show 0 + (w - 1) + 1 = w by omega, BitVec.ushiftRight_eq_zero (Nat.le_refl w), BitVec.xor_zero, BitVec.ushiftRight_zero] at this
    exact this
  · obtain ⟨y, h1, h2⟩ := loop_encodes p hw x (w - 1) 0 x rfl
    rw [BitVec.ushiftRight_zero] at h1
    rw [show 0 + (w - 1) + 1 = w by omega, BitVec.ushiftRight_eq_zero (Nat.le_refl w), BitVec.xor_zero] at h2
    exact ⟨y, h1, by rw [toGray_eq p hw, h2]⟩

/-- The bits in which two neighbouring numbers differ are the lowest ones. -/
private theorem succ_bits : ∀ n : Nat, ∃ k, ∀ i, (n.testBit i ^^ (n + 1).testBit i) = decide (i ≤ k) := by
  intro n
  induction n using Nat.strongRecOn with
  | ind n ih =>
    obtain ⟨m, rfl | rfl⟩ : ∃ m, n = 2 * m ∨ n = 2 * m + 1 := ⟨n / 2, by omega⟩
    · refine ⟨0, fun i => ?_⟩
      cases i with
      | zero => simp
      | succ i => rw [Nat.testBit_succ, Nat.testBit_succ, show (2 * m + 1) / 2 = 2 * m / 2 by omega]; simp
    · obtain ⟨k, hk⟩ := ih m (by omega)
      refine ⟨k + 1, fun i => ?_⟩
      cases i with
      | zero => simp; omega
      | succ i => rw [Nat.testBit_succ, Nat.testBit_succ, show (2 * m + 1) / 2 = m by omega, show (2 * m + 1 + 1) / 2 = m + 1 by omega, hk]; simp

/-- **C167**, neighbours: the codes of two neighbouring positions (the last and the first one are neighbours, too) differ in exactly one bit. -/
theorem C167_neighbours (p : Profile) {w : Nat} (hw : 1 < w) (x : BitVec w) :
    ∃ g g' k, toGray p x = .ok g ∧ toGray p (x + 1) = .ok g' ∧ k < w ∧ ∀ i < w, (g.getLsbD i = g'.getLsbD i ↔ i ≠ k) := by
  obtain ⟨k, hk⟩ := succ_bits x.toNat
  have bit : ∀ i < w, (x.getLsbD i ^^ (x + 1).getLsbD i) = decide (i ≤ k) := fun i hi => by
    rw [← hk i, BitVec.getLsbD, BitVec.getLsbD, BitVec.toNat_add, Nat.testBit_mod_two_pow]
    have : (1 : BitVec w).toNat = 1 := BitVec.toNat_one (by omega)
    rw [this]; simp [hi]
  refine ⟨_, _, min k (w - 1), toGray_eq p hw x, toGray_eq p hw _, by omega, fun i hi => ?_⟩
  rw [BitVec.getLsbD_xor, BitVec.getLsbD_xor, BitVec.getLsbD_ushiftRight, BitVec.getLsbD_ushiftRight]
  have h1 := bit i hi
  by_cases hi2 : 1 + i < w
  · have h2 := bit (1 + i) hi2
    by_cases c1 : i ≤ k <;> by_cases c2 : 1 + i ≤ k <;> simp only [c1, c2, decide_true, decide_false] at h1 h2 <;>
      revert h1 h2 <;> cases x.getLsbD i <;> cases x.getLsbD (1 + i) <;> cases (x + 1).getLsbD i <;> cases (x + 1).getLsbD (1 + i) <;> simp <;> omega
  · rw [BitVec.getLsbD_of_ge x (1 + i) (by omega), BitVec.getLsbD_of_ge (x + 1) (1 + i) (by omega)]
    by_cases c1 : i ≤ k <;> simp only [c1, decide_true, decide_false] at h1 <;> revert h1 <;> cases x.getLsbD i <;> cases (x + 1).getLsbD i <;> simp <;> omega

/-- **C167**: a position in Gray code that is read while it changes to a neighbour is the old or the new position. -/
theorem C167_reading (p : Profile) {w : Nat} (hw : 1 < w) (x y : BitVec w) (hxy : y = x + 1 ∨ x = y + 1) :
    ∃ g g', toGray p x = .ok g ∧ toGray p y = .ok g' ∧ ∀ r, Between g g' r → fromGray p r = .ok x ∨ fromGray p r = .ok y := by
  have key : ∀ x : BitVec w, ∃ g g', toGray p x = .ok g ∧ toGray p (x + 1) = .ok g' ∧ ∀ r, Between g g' r → fromGray p r = .ok x ∨ fromGray p r = .ok (x + 1) := by
    intro x
    obtain ⟨g, g', k, h1, h2, hk, hb⟩ := C167_neighbours p hw x
    refine ⟨g, g', h1, h2, fun r hr => ?_⟩
    have back : ∀ z q, toGray p z = .ok q → fromGray p q = .ok z := fun z q hq => by
      obtain ⟨⟨q', e1, e2⟩, _⟩ := C167_round_trip p hw z
      rw [hq] at e1
      cases Res.ok.inj e1
      exact e2
    have same : ∀ i < w, i ≠ k → r.getLsbD i = g.getLsbD i ∧ r.getLsbD i = g'.getLsbD i := fun i hi hik => by
      have := (hb i hi).2 hik
      rcases hr i with e | e
      · exact ⟨e, by rw [e, this]⟩
      · exact ⟨by rw [e, this], e⟩
    rcases hr k with e | e
    · left
      rw [show r = g from BitVec.eq_of_getLsbD_eq fun i hi => by
        by_cases hik : i = k
        · rw [hik, e]
        · exact (same i hi hik).1]
      exact back _ _ h1
    · right
      rw [show r = g' from BitVec.eq_of_getLsbD_eq fun i hi => by
        by_cases hik : i = k
        · rw [hik, e]
        · exact (same i hi hik).2]
      exact back _ _ h2
  rcases hxy with rfl | rfl
  · exact key x
  · obtain ⟨g, g', h1, h2, h3⟩ := key y
    exact ⟨g', g, h2, h1, fun r hr => (h3 r fun i => (hr i).symm).symm⟩

/-- A plain binary number is not: between 7 and 8 every number of four bits can be read. -/
theorem C167_binary {w : Nat} (r : BitVec w) (h : r.toNat < 16) (hw : 4 ≤ w) : Between (7#w) (8#w) r := by
  intro i
  have e7 : (7#w).toNat = 7 := by rw [BitVec.toNat_ofNat, Nat.mod_eq_of_lt (Nat.lt_of_lt_of_le (by decide : 7 < 2 ^ 4) (Nat.pow_le_pow_right (by decide) hw))]
  have e8 : (8#w).toNat = 8 := by rw [BitVec.toNat_ofNat, Nat.mod_eq_of_lt (Nat.lt_of_lt_of_le (by decide : 8 < 2 ^ 4) (Nat.pow_le_pow_right (by decide) hw))]
  rw [BitVec.getLsbD, BitVec.getLsbD, BitVec.getLsbD, e7, e8]
  by_cases hi : i < 4
  · have : i = 0 ∨ i = 1 ∨ i = 2 ∨ i = 3 := by omega
    rcases this with rfl | rfl | rfl | rfl
    · rw [show Nat.testBit 7 0 = true from rfl, show Nat.testBit 8 0 = false from rfl]; cases r.toNat.testBit 0 <;> simp
    · rw [show Nat.testBit 7 1 = true from rfl, show Nat.testBit 8 1 = false from rfl]; cases r.toNat.testBit 1 <;> simp
    · rw [show Nat.testBit 7 2 = true from rfl, show Nat.testBit 8 2 = false from rfl]; cases r.toNat.testBit 2 <;> simp
    · rw [show Nat.testBit 7 3 = false from rfl, show Nat.testBit 8 3 = true from rfl]; cases r.toNat.testBit 3 <;> simp
  · have : (16 : Nat) ≤ 2 ^ i := Nat.le_trans (by decide : 16 ≤ 2 ^ 4) (Nat.pow_le_pow_right (by decide) (by omega))
    left
    rw [Nat.testBit_lt_two_pow (by omega), Nat.testBit_lt_two_pow (by omega)]

/-! ### Cases -/

example : toGray .debug 5#8 = .ok 7#8 ∧ toGray .debug 6#8 = .ok 5#8 ∧ toGray .release 255#8 = .ok 128#8 ∧ toGray .debug 0#8 = .ok 0#8 := by decide
example : fromGray .debug 7#8 = .ok 5#8 ∧ fromGray .debug 128#8 = .ok 255#8 := by decide
example : Between 7#8 8#8 13#8 := C167_binary 13#8 (by decide) (by decide)

end Verif
