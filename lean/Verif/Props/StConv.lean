import Verif.Proofs.Ints
import Verif.Spec.StConv
/-
C64, C65, C70: conversions and ABS implemented in Structured Text.
-/
namespace Verif
open Spec

/-- What the table shows about one entry: declared types match the function's name, and the body
is one that converts (for a `BOOL` result: a truth test). -/
private def wellFormed (c : StConv) : Bool :=
  c.inTy.ty = c.src.ty && c.outTy.ty = c.dst.ty &&
  (match c.body with
    | .assign | .reinterpret => c.dst ≠ .BOOL
    | .nonzero => c.src = .BOOL || c.dst = .BOOL
    | .bit0 => c.dst = .BOOL
    | .call s d => match stConversions.find? (fun g => g.src = s ∧ g.dst = d) with
      | some g =>
        if c.dst = .BOOL then
          g.body = .nonzero && g.inTy.ty.signed && c.src.ty.signed && c.src.ty.bits ≤ g.inTy.ty.bits
        else
          g.inTy.ty = c.src.ty && g.outTy.ty = c.src.ty && (g.body = .assign || g.body = .reinterpret)
      | none => false)

private theorem all_wellFormed : ∀ c ∈ stConversions, wellFormed c = true := by decide +kernel

private theorem bits_pos (s : StType) : 0 < s.ty.bits := by cases s <;> decide

private theorem wrap_converts (t : IntTy) (h : 0 < t.bits) (x : Int) : ConvertsTo t x (t.wrap x) :=
  ⟨t.wrap_inRange h x, fun hx => t.wrap_of_inRange h hx, t.wrap_congr x⟩

/-- **C64**, value: every conversion function `S_TO_D` of the library between integer, bit-string,
character and date/time types (D not BOOL) takes a value of S to the same number if it is a value of D, and to the
congruent one modulo 2^width(D) otherwise. -/
theorem C64_value : ∀ c ∈ stConversions, c.dst ≠ .BOOL → ∀ x, c.src.ty.InRange x →
    ConvertsTo c.dst.ty x (c.run stConversions x) := by
  intro c hc hd x hx
  have hw := all_wellFormed c hc
  obtain ⟨src, dst, inTy, outTy, body⟩ := c
  simp only [wellFormed, Bool.and_eq_true, decide_eq_true_eq] at hw
  obtain ⟨⟨hi, ho⟩, hb⟩ := hw
  simp only at hi ho hd hx
  unfold StConv.run
  rw [← ho]
  cases body with
  | assign => exact wrap_converts _ (bits_pos _) x
  | reinterpret => exact wrap_converts _ (bits_pos _) x
  | bit0 => simp at hb; exact absurd hb hd
  | nonzero =>
    simp [hd] at hb
    subst hb
    have hx' : x = 0 ∨ x = 1 := by
      simp [StType.ty, IntTy.InRange, IntTy.bool, IntTy.lo, IntTy.hi] at hx; omega
    have key : StBody.run outTy.ty x .nonzero = outTy.ty.wrap x := by
      rcases hx' with rfl | rfl
      · rw [IntTy.wrap_of_inRange _ (bits_pos _) (by cases outTy <;> decide)]; rfl
      · rw [IntTy.wrap_of_inRange _ (bits_pos _) (by cases outTy <;> decide)]; rfl
    simp only
    rw [key]
    exact wrap_converts _ (bits_pos _) x
  | call s d =>
    simp only at hb ⊢
    split at hb
    · rename_i g hg
      simp only [hd, if_false, Bool.and_eq_true, Bool.or_eq_true, decide_eq_true_eq] at hb
      obtain ⟨⟨h1, h2⟩, h3⟩ := hb
      have hrun : g.body.run g.outTy.ty (g.inTy.ty.wrap x) = x := by
        rw [h1, IntTy.wrap_of_inRange _ (bits_pos _) hx]
        rcases h3 with h3 | h3 <;>
        · rw [h3]; simp only [StBody.run]
          rw [h2, IntTy.wrap_of_inRange _ (bits_pos _) hx]
      rw [hg]
      simp only
      rw [hrun]
      exact wrap_converts _ (bits_pos _) x
    · simp at hb

/-- **C64**, round trip: converting to a type at least as wide and back is the identity. -/
theorem C64_round_trip : ∀ c ∈ stConversions, ∀ c' ∈ stConversions, c.dst ≠ .BOOL → c.src ≠ .BOOL →
    c'.src = c.dst → c'.dst = c.src → c.src.ty.bits ≤ c.dst.ty.bits →
    ∀ x, c.src.ty.InRange x → c'.run stConversions (c.run stConversions x) = x := by
  intro c hc c' hc' hd hs h1 h2 hb x hx
  obtain ⟨r1, _, d1⟩ := C64_value c hc hd x hx
  obtain ⟨r2, _, d2⟩ := C64_value c' hc' (by rw [h2]; exact hs) (c.run stConversions x)
    (by rw [h1]; exact r1)
  rw [h2] at r2 d2
  apply IntTy.eq_of_congr c.src.ty (bits_pos _) r2 hx
  have hdd : ((2 ^ c.src.ty.bits : Nat) : Int) ∣ c.run stConversions x - x := by
    refine Int.dvd_trans ?_ d1
    exact Int.natCast_dvd_natCast.2 (Nat.pow_dvd_pow 2 hb)
  have := Int.dvd_add d2 hdd
  rwa [sub_add_sub_cancel] at this

/-- Looking a function up by its name. -/
def stFind (s d : StType) : Option StConv := stConversions.find? fun c => c.src = s ∧ c.dst = d

example : (stFind .LINT .SINT).map (fun c => c.run stConversions 300) = some 44 ∧
    (stFind .LINT .SINT).map (fun c => c.run stConversions 200) = some (-56) ∧
    (stFind .SINT .LWORD).map (fun c => c.run stConversions (-1)) = some (2 ^ 64 - 1) ∧
    (stFind .WCHAR .DWORD).map (fun c => c.run stConversions 0xFFFF) = some 0xFFFF := by
  decide +kernel

/-! ### Conversions to BOOL -/

/-- The claim of C70. -/
def ToBoolIsNonzero : Prop :=
  ∀ c ∈ stConversions, c.dst = .BOOL → ∀ x, c.src.ty.InRange x →
    c.run stConversions x = if x ≠ 0 then 1 else 0

/-- **C70 is false** of the code: `WORD_TO_BOOL(2)` is FALSE. -/
theorem C70_refuted : ¬ ToBoolIsNonzero := by
  intro H
  exact absurd (H ⟨.WORD, .BOOL, .WORD, .BOOL, .bit0⟩ (by decide +kernel) rfl 2 (by decide +kernel))
    (by decide +kernel)

/-- **C70, what holds.** From the integer types LINT and DINT the result is TRUE iff the value is not
0; from the bit-string types it is TRUE iff the value is odd. There are no other conversions to
BOOL. -/
theorem C70_partial : ∀ c ∈ stConversions, c.dst = .BOOL → ∀ x, c.src.ty.InRange x →
    (c.src = .LINT ∨ c.src = .DINT) ∧ c.run stConversions x = (if x ≠ 0 then 1 else 0) ∨
    (c.src = .BYTE ∨ c.src = .WORD ∨ c.src = .DWORD ∨ c.src = .LWORD) ∧
      c.run stConversions x = (if x % 2 = 1 then 1 else 0) := by
  intro c hc hd x hx
  have key : c ∈ stConversions.filter (fun c => c.dst = .BOOL) := by simp [hc, hd]
  have hl : stConversions.filter (fun c => c.dst = .BOOL) =
      [⟨.LWORD, .BOOL, .LWORD, .BOOL, .bit0⟩, ⟨.DWORD, .BOOL, .DWORD, .BOOL, .bit0⟩,
       ⟨.WORD, .BOOL, .WORD, .BOOL, .bit0⟩, ⟨.BYTE, .BOOL, .BYTE, .BOOL, .bit0⟩,
       ⟨.LINT, .BOOL, .LINT, .BOOL, .nonzero⟩, ⟨.DINT, .BOOL, .DINT, .BOOL, .call .LINT .BOOL⟩] := by
    decide +kernel
  rw [hl] at key
  have hb : ∀ y : Int, y % 2 = if y % 2 = 1 then 1 else 0 := by intro y; split <;> omega
  simp only [List.mem_cons, List.not_mem_nil, or_false] at key
  rcases key with rfl | rfl | rfl | rfl | rfl | rfl
  · right; exact ⟨by simp, hb x⟩
  · right; exact ⟨by simp, hb x⟩
  · right; exact ⟨by simp, hb x⟩
  · right; exact ⟨by simp, hb x⟩
  · left; exact ⟨by simp, rfl⟩
  · left
    refine ⟨by simp, ?_⟩
    have hg : stConversions.find? (fun g => g.src = .LINT ∧ g.dst = .BOOL) =
      some ⟨.LINT, .BOOL, .LINT, .BOOL, .nonzero⟩ := by decide +kernel
    have hx64 : IntTy.i64.wrap x = x := by
      apply IntTy.wrap_of_inRange _ (by decide)
      simp [StType.ty, IntTy.InRange, IntTy.i32, IntTy.lo, IntTy.hi] at hx
      simp [IntTy.InRange, IntTy.i64, IntTy.lo, IntTy.hi]; omega
    have h2 : ∀ y : Int, StBody.run IntTy.bool y .nonzero = if y ≠ 0 then 1 else 0 := fun _ => rfl
    simp only [StConv.run, hg, StType.ty, hx64, h2]
    split <;> decide

example : (stFind .WORD .BOOL).map (fun c => c.run stConversions 6) = some 0 ∧
    (stFind .DINT .BOOL).map (fun c => c.run stConversions 6) = some 1 := by decide +kernel

/-! ### ABS -/

/-- The claim of C65. -/
def AbsIsAbsolute (t : IntTy) : Prop := ∀ x, t.InRange x → ABS t x = x.natAbs

/-- **C65 is false** for every signed type: ABS of the smallest value is that (negative) value. -/
theorem C65_refuted (t : IntTy) (ht : IsSignedTy t) : ¬ AbsIsAbsolute t := by
  intro H
  rcases ht with rfl | rfl | rfl | rfl
  · exact absurd (H (-2 ^ 7) (by decide)) (by decide)
  · exact absurd (H (-2 ^ 15) (by decide)) (by decide)
  · exact absurd (H (-2 ^ 31) (by decide)) (by decide)
  · exact absurd (H (-2 ^ 63) (by decide)) (by decide)

/-- **C65, what holds.** ABS is the absolute value for every value except the smallest one, which it
returns unchanged. -/
theorem C65_partial (t : IntTy) (ht : IsSignedTy t) (x : Int) (hx : t.InRange x) :
    (x ≠ t.lo → ABS t x = x.natAbs) ∧ (x = t.lo → ABS t x = x) := by
  have h32 : ∀ y : Int, IntTy.i32.InRange y → IntTy.i32.wrap y = y := fun y hy =>
    IntTy.wrap_of_inRange _ (by decide) hy
  constructor
  · intro hne
    have hx' : t.InRange (x.natAbs : Int) := by
      rcases ht with rfl | rfl | rfl | rfl <;>
        simp [IntTy.InRange, IntTy.i8, IntTy.i16, IntTy.i32, IntTy.i64, IntTy.lo, IntTy.hi] at * <;> omega
    have hdir : ∀ u : IntTy, 0 < u.bits → u.InRange (x.natAbs : Int) → ABS_direct u x = x.natAbs := by
      intro u hu hr
      unfold ABS_direct
      split
      · rw [show -1 * x = (x.natAbs : Int) by omega, IntTy.wrap_of_inRange u hu hr]
      · omega
    rcases ht with rfl | rfl | rfl | rfl
    · have hr : IntTy.i32.InRange (x.natAbs : Int) := by
        simp [IntTy.InRange, IntTy.i8, IntTy.i32, IntTy.lo, IntTy.hi] at *; omega
      show IntTy.i8.wrap (ABS_direct .i32 x) = _
      rw [hdir _ (by decide) hr, IntTy.wrap_of_inRange _ (by decide) hx']
    · have hr : IntTy.i32.InRange (x.natAbs : Int) := by
        simp [IntTy.InRange, IntTy.i16, IntTy.i32, IntTy.lo, IntTy.hi] at *; omega
      show IntTy.i16.wrap (ABS_direct .i32 x) = _
      rw [hdir _ (by decide) hr, IntTy.wrap_of_inRange _ (by decide) hx']
    · exact hdir _ (by decide) hx'
    · exact hdir _ (by decide) hx'
  · rintro rfl
    rcases ht with rfl | rfl | rfl | rfl <;> decide

example : ABS .i16 (-300) = 300 ∧ ABS .i8 (-128) = -128 := by decide

end Verif
