import Verif.Props.StStrings
import Verif.Props.IntText
import Verif.Props.DateTime
import Verif.Props.Duration
/-
C169: dates, times of day and date-and-times read back from their text.

The library writes dates and times as text but has no function that reads them; a program that stores them as text reads
them with MID, STRING_TO_DINT and the CONCAT functions.
-/
namespace Verif
open Spec

/-- `STRING_TO_DINT(MID(s, L, P))`. -/
def part (p : Profile) (s : List Nat) (L P : Int) : Res Int := do
  let m ← St.MID p codec8 (some s) L P
  STRING_TO_DINT (some m)

/-- Reading YYYY-MM-DD:
`CONCAT_DATE(STRING_TO_DINT(MID(s, 4, 1)), STRING_TO_DINT(MID(s, 2, 6)), STRING_TO_DINT(MID(s, 2, 9)))`. -/
def readDate (p : Profile) (s : List Nat) : Res Int := do
  let y ← part p s 4 1
  let m ← part p s 2 6
  let d ← part p s 2 9
  CONCAT_DATE .i32 y m d

/-- The STRING constant '000000000'. -/
def nineZeros : List Nat := List.replicate 9 48 ++ [0]

/-- Reading HH:MM:SS with or without a fraction:
```
whole := CONCAT_TOD(STRING_TO_DINT(MID(s, 2, 1)), STRING_TO_DINT(MID(s, 2, 4)), STRING_TO_DINT(MID(s, 2, 7)), 0);
IF LEN(s) <= 8 THEN readTod := whole;
ELSE readTod := ADD_TOD_TIME(whole, STRING_TO_LINT(LEFT(CONCAT(MID(s, LEN(s) - 9, 10), '000000000'), 9)));
END_IF
``` -/
def readTod (p : Profile) (s : List Nat) : Res Int := do
  let h ← part p s 2 1
  let m ← part p s 2 4
  let sec ← part p s 2 7
  let whole ← CONCAT_TOD .i32 h m sec 0
  let n ← len codec8 (some s)
  if n ≤ 8 then pure whole
  else do
    let digits ← St.MID p codec8 (some s) (n - 9) 10
    let filled ← St.CONCAT codec8 [some digits, some nineZeros]
    let nine ← St.LEFT codec8 (some filled) 9
    let ns ← STRING_TO_LINT (some nine)
    ADD_TOD_TIME whole ns

/-- Reading YYYY-MM-DD-HH:MM:SS with or without a fraction:
`CONCAT_DATE_TOD(readDate(s), readTod(MID(s, LEN(s) - 11, 12)))`. -/
def readDt (p : Profile) (s : List Nat) : Res Int := do
  let d ← readDate p s
  let n ← len codec8 (some s)
  let rest ← St.MID p codec8 (some s) (n - 11) 12
  let tod ← readTod p rest
  CONCAT_DATE_TOD d tod

private theorem ascii_units {s : List Nat} (h : Ascii s) : StrTy.STRING.units (s.map Char.ofNat) = s :=
  (ascii_utf8 fun b hb => (h b hb).2).symm

private theorem mid_ascii (p : Profile) {mem s : List Nat} (h : Holds mem s) (ha : Ascii s) (hl : s.length ≤ 2048)
    (L P : Nat) (hP : 1 ≤ P) (hP' : P ≤ s.length) (hLP : P - 1 + L ≤ s.length) :
    Returns (St.MID p codec8 (some mem) L P) ((s.drop (P - 1)).take L) := by
  have h' : Holds mem (StrTy.STRING.units (s.map Char.ofNat)) := by rw [ascii_units ha]; exact h
  have := (C95_select p .STRING mem (s.map Char.ofNat) L P h' (by rw [ascii_units ha]; exact hl) (by simp; omega) (by omega)
    (by omega) (by simp; omega) (by simp; omega)).2.2.1
  rw [show ((P : Int) - 1).toNat = P - 1 by omega, Int.toNat_natCast, ← List.map_drop, ← List.map_take,
    ascii_units fun b hb => ha b (List.mem_of_mem_drop (List.mem_of_mem_take hb))] at this
  exact this

private theorem literal_of_numeral {s : List Nat} {n : Nat} (h : Numeral 10 s n) : IntLiteral s n :=
  ⟨("", 10), by simp [prefixes], ("", 1), by simp [signs], s, n, rfl, h, by simp⟩

/-- Digits in the middle of a string. -/
private theorem part_digits (p : Profile) {mem a s b : List Nat} {n : Nat} (h : Holds mem (a ++ s ++ b))
    (hs : Ascii (a ++ s ++ b)) (hl : (a ++ s ++ b).length ≤ 2048) (hn : Numeral 10 s n) (h1 : 1 ≤ s.length) (hb : n < 2 ^ 31)
    (L P : Nat) (hL : L = s.length) (hP : P = a.length + 1) : part p mem L P = .ok n := by
  subst hL hP
  obtain ⟨m, e, _, hm⟩ := mid_ascii p h hs hl s.length (a.length + 1) (by omega) (by simp; omega) (by simp)
  rw [Nat.add_sub_cancel, List.append_assoc, List.drop_left, List.take_left] at hm
  unfold part
  rw [e, Res.bind_ok]
  exact ((C60_value m s hm n).2).2 ⟨literal_of_numeral hn, by omega, by omega⟩

private theorem pad_len {w n : Nat} (hw : 1 ≤ w) (h : n < 10 ^ w) : (padded w n).length = w := padded_length w n hw h

/-- The date part of a string that begins with a date in digits, with any separators. -/
private theorem readDate_digits (p : Profile) {mem b : List Nat} {y m d : Nat} {c1 c2 : Nat} (hy : y < 10000) (hm : m < 100)
    (hd : d < 100) (h : Holds mem (padded 4 y ++ [c1] ++ padded 2 m ++ [c2] ++ padded 2 d ++ b))
    (ha : Ascii (padded 4 y ++ [c1] ++ padded 2 m ++ [c2] ++ padded 2 d ++ b))
    (hl : (padded 4 y ++ [c1] ++ padded 2 m ++ [c2] ++ padded 2 d ++ b).length ≤ 2048) :
    readDate p mem = CONCAT_DATE .i32 y m d := by
  have ly : (padded 4 y).length = 4 := pad_len (by omega) (by omega)
  have lm : (padded 2 m).length = 2 := pad_len (by omega) (by omega)
  have ld : (padded 2 d).length = 2 := pad_len (by omega) (by omega)
  have e1 : part p mem (4 : Nat) (1 : Nat) = .ok y := by
    refine part_digits p (a := []) (b := [c1] ++ padded 2 m ++ [c2] ++ padded 2 d ++ b) (s := padded 4 y) ?_ ?_ ?_
      (numeral_padded 4 y) (by omega) (by omega) _ _ ly.symm rfl
    · simpa only [List.append_assoc, List.nil_append] using h
    · simpa only [List.append_assoc, List.nil_append] using ha
    · simpa only [List.append_assoc, List.nil_append] using hl
  have e2 : part p mem (2 : Nat) (6 : Nat) = .ok m := by
    refine part_digits p (a := padded 4 y ++ [c1]) (b := [c2] ++ padded 2 d ++ b) (s := padded 2 m) ?_ ?_ ?_
      (numeral_padded 2 m) (by omega) (by omega) _ _ lm.symm (by simp [ly])
    · simpa only [List.append_assoc, List.nil_append] using h
    · simpa only [List.append_assoc, List.nil_append] using ha
    · simpa only [List.append_assoc, List.nil_append] using hl
  have e3 : part p mem (2 : Nat) (9 : Nat) = .ok d := by
    refine part_digits p (a := padded 4 y ++ [c1] ++ padded 2 m ++ [c2]) (b := b) (s := padded 2 d) ?_ ?_ ?_
      (numeral_padded 2 d) (by omega) (by omega) _ _ ld.symm (by simp [ly, lm])
    · simpa only [List.append_assoc, List.nil_append] using h
    · simpa only [List.append_assoc, List.nil_append] using ha
    · simpa only [List.append_assoc, List.nil_append] using hl
  unfold readDate
  rw [show part p mem 4 1 = .ok y from e1, Res.bind_ok, show part p mem 2 6 = .ok m from e2, Res.bind_ok,
    show part p mem 2 9 = .ok d from e3, Res.bind_ok]

private theorem i32_small {n : Nat} (h : n < 2 ^ 31) : IntTy.i32.wrap n = n := by
  apply IntTy.wrap_of_inRange .i32 (by decide)
  unfold IntTy.InRange IntTy.lo IntTy.hi IntTy.i32
  norm_num
  omega

private theorem u32_small {n : Nat} (h : n < 2 ^ 31) : (IntTy.u32.wrap n).toNat = n := by
  rw [IntTy.wrap_of_inRange .u32 (by decide), Int.toNat_natCast]
  unfold IntTy.InRange IntTy.lo IntTy.hi IntTy.u32
  norm_num
  omega

private theorem concat_date_small (y m d : Nat) (hy : y < 10000) (hm : m < 100) (hd : d < 100) :
    CONCAT_DATE .i32 y m d = concat_date y m d := by
  unfold CONCAT_DATE
  rw [i32_small (by omega), u32_small (by omega), u32_small (by omega)]

private theorem readDate_text (p : Profile) {mem b : List Nat} {t : Int} (ht : IntTy.i64.InRange t)
    (h : Holds mem (dateText (civilDate (dayOf t)) ++ b)) (hb : Ascii b) (hl : b.length ≤ 2038) :
    readDate p mem = if IntTy.i64.InRange (dayOf t * D) then .ok (dayOf t * D) else .panic := by
  have hy := year_range ht
  have hd := date_bounds (dayOf t)
  have hlen := dateText_length ht
  have ha := (ascii_date (civilDate (dayOf t))).append hb
  have hl' : (dateText (civilDate (dayOf t)) ++ b).length ≤ 2048 := by rw [List.length_append]; omega
  obtain ⟨c, hc⟩ : ∃ c, civilDate (dayOf t) = c := ⟨_, rfl⟩
  rw [hc] at h hd hlen ha hl' hy
  obtain ⟨k1, k2⟩ := C33_concat_date c.year c.month c.day
  unfold dateText at h ha hl'
  rw [show ascii "-" = [45] by decide] at h ha hl'
  rw [readDate_digits p (y := c.year.toNat) (m := c.month) (d := c.day) (c1 := 45) (c2 := 45) (by omega) (by omega) (by omega)
    h ha hl', concat_date_small _ _ _ (by omega) (by omega) (by omega), show ((c.year.toNat : Nat) : Int) = c.year by omega]
  by_cases hr : IntTy.i64.InRange (dayOf t * D)
  · rw [if_pos hr]; exact k1 _ hc hr
  · rw [if_neg hr]
    refine k2 ?_
    rintro ⟨k, hk, hr'⟩
    rw [civilDate_inj (hk.trans hc.symm)] at hr'
    exact hr hr'

private theorem numeral_filled {s : List Nat} {n : Nat} (h : Numeral 10 s n) (k : Nat) :
    Numeral 10 (s ++ List.replicate k 48) (n * 10 ^ k) := by
  induction k with
  | zero => simpa using h
  | succ k ih =>
    obtain ⟨ds, h1, h2, h3⟩ := ih
    refine ⟨ds ++ [0], ?_, by simp, ?_⟩
    · rw [List.replicate_succ', ← List.append_assoc]
      exact List.rel_append h1 (.cons ⟨by omega, by omega⟩ .nil)
    · rw [List.reverse_append, List.reverse_singleton, List.singleton_append, Nat.ofDigits_cons, ← h3, Nat.pow_succ]
      ring

/-- The digits of a fraction, filled with zeros, are its nanoseconds. -/
private theorem fraction_digits {f : Nat} (hf : f < 1000000000) (h0 : f ≠ 0) :
    ∃ ds, fractionText f = [46] ++ ds ∧ 1 ≤ ds.length ∧ ds.length ≤ 9 ∧ Ascii ds ∧
      Numeral 10 ((ds ++ List.replicate 9 48).take 9) f := by
  have key : ∀ w n k, 1 ≤ w → w + k = 9 → n < 10 ^ w → n * 10 ^ k = f →
      1 ≤ (padded w n).length ∧ (padded w n).length ≤ 9 ∧ Ascii (padded w n) ∧
      Numeral 10 ((padded w n ++ List.replicate 9 48).take 9) f := by
    intro w n k hw hk hn he
    have hl := pad_len hw hn
    refine ⟨by omega, by omega, ascii_padded w n, ?_⟩
    rw [List.take_append, List.take_of_length_le (by omega), List.take_replicate, hl, show min (9 - w) 9 = k by omega, ← he]
    exact numeral_filled (numeral_padded w n) k
  unfold fractionText
  rw [if_neg h0, show ascii "." = [46] by decide]
  split
  · next h => exact ⟨_, rfl, key 3 _ 6 (by omega) (by omega) (by omega) (Nat.div_mul_cancel h)⟩
  split
  · next h => exact ⟨_, rfl, key 6 _ 3 (by omega) (by omega) (by omega) (Nat.div_mul_cancel h)⟩
  · exact ⟨_, rfl, key 9 _ 0 (by omega) (by omega) (by omega) (by omega)⟩

private theorem nine_holds : Holds nineZeros (List.replicate 9 48) :=
  ⟨fun u hu => by rw [List.eq_of_mem_replicate hu]; omega, [], rfl⟩

private theorem ascii_nine : Ascii (List.replicate 9 48) := fun b hb => by rw [List.eq_of_mem_replicate hb]; omega

/-- The nanoseconds, from the digits behind the point. -/
private theorem nanos_of (p : Profile) {mem a ds : List Nat} {f : Nat} (h : Holds mem (a ++ ds)) (ha : Ascii (a ++ ds))
    (la : a.length = 9) (l1 : 1 ≤ ds.length) (l9 : ds.length ≤ 9) (hn : Numeral 10 ((ds ++ List.replicate 9 48).take 9) f)
    (hf : f < 1000000000) :
    (do
      let digits ← St.MID p codec8 (some mem) (((a ++ ds).length : Nat) - 9 : Int) 10
      let filled ← St.CONCAT codec8 [some digits, some nineZeros]
      let nine ← St.LEFT codec8 (some filled) 9
      STRING_TO_LINT (some nine)) = .ok (f : Int) := by
  have ads : Ascii ds := fun b hb => ha b (List.mem_append_right _ hb)
  obtain ⟨m1, e1, _, h1⟩ := mid_ascii p h ha (by simp; omega) ds.length 10 (by omega) (by simp; omega) (by simp; omega)
  rw [show (10 - 1 : Nat) = a.length by omega, List.drop_left, List.take_of_length_le (by omega)] at h1
  rw [show (((a ++ ds).length : Nat) - 9 : Int) = (ds.length : Nat) by rw [List.length_append]; push_cast; omega,
    show (10 : Int) = ((10 : Nat) : Int) from rfl, e1, Res.bind_ok]
  obtain ⟨m2, e2, _, h2⟩ := (C95_concat_partial .STRING [ds.map Char.ofNat, (List.replicate 9 48).map Char.ofNat]
    [some m1, some nineZeros] (by simp)
    ⟨⟨_, rfl, by rw [ascii_units ads]; exact h1⟩, ⟨_, rfl, by rw [ascii_units ascii_nine]; exact nine_holds⟩, trivial⟩).1 (by
      simp only [List.flatten_cons, List.flatten_nil, List.append_nil, ← List.map_append,
        ascii_units (ads.append ascii_nine)]
      simp; omega)
  simp only [List.flatten_cons, List.flatten_nil, List.append_nil, ← List.map_append] at h2
  rw [show St.CONCAT codec8 [some m1, some nineZeros] = .ok m2 from e2, Res.bind_ok]
  have hall := ads.append ascii_nine
  obtain ⟨m3, e3, _, h3⟩ := (C95_select p .STRING m2 _ 9 1 h2 (by rw [ascii_units hall]; simp; omega) (by simp; omega)
    (by omega) (by omega) (by simp; omega) (by simp)).1
  rw [show (9 : Int).toNat = 9 from rfl, ← List.map_take,
    ascii_units fun b hb => hall b (List.mem_of_mem_take hb)] at h3
  rw [show St.LEFT codec8 (some m2) 9 = .ok m3 from e3, Res.bind_ok]
  exact ((C60_value m3 _ h3 f).1).2 ⟨literal_of_numeral hn, by omega, by omega⟩

private theorem len_ascii {mem s : List Nat} (h : Holds mem s) (ha : Ascii s) (hl : s.length ≤ 2048) :
    len codec8 (some mem) = .ok (s.length : Int) := by
  have h' : Holds mem (utf8 (s.map Char.ofNat)) := by
    rw [show utf8 (s.map Char.ofNat) = s from ascii_units ha]; exact h
  have := C44_len_string mem _ h' (by simp; omega)
  rwa [List.length_map] at this

/-- A time of day in digits, with any separators and fraction: hours, minutes and seconds. -/
private theorem readTod_digits (p : Profile) {mem b : List Nat} {x y z : Nat} {c1 c2 : Nat} (hx : x < 100) (hy : y < 100)
    (hz : z < 100) (h : Holds mem (padded 2 x ++ [c1] ++ padded 2 y ++ [c2] ++ padded 2 z ++ b))
    (ha : Ascii (padded 2 x ++ [c1] ++ padded 2 y ++ [c2] ++ padded 2 z ++ b))
    (hl : (padded 2 x ++ [c1] ++ padded 2 y ++ [c2] ++ padded 2 z ++ b).length ≤ 2048) :
    part p mem 2 1 = .ok x ∧ part p mem 2 4 = .ok y ∧ part p mem 2 7 = .ok z := by
  have lx : (padded 2 x).length = 2 := pad_len (by omega) (by omega)
  have ly : (padded 2 y).length = 2 := pad_len (by omega) (by omega)
  have lz : (padded 2 z).length = 2 := pad_len (by omega) (by omega)
  refine ⟨part_digits p (a := []) (b := [c1] ++ padded 2 y ++ [c2] ++ padded 2 z ++ b) (s := padded 2 x) ?_ ?_ ?_
      (numeral_padded 2 x) (by omega) (by omega) 2 1 lx.symm rfl,
    part_digits p (a := padded 2 x ++ [c1]) (b := [c2] ++ padded 2 z ++ b) (s := padded 2 y) ?_ ?_ ?_
      (numeral_padded 2 y) (by omega) (by omega) 2 4 ly.symm (by simp [lx]),
    part_digits p (a := padded 2 x ++ [c1] ++ padded 2 y ++ [c2]) (b := b) (s := padded 2 z) ?_ ?_ ?_
      (numeral_padded 2 z) (by omega) (by omega) 2 7 lz.symm (by simp [lx, ly])⟩
  · simpa only [List.append_assoc, List.nil_append] using h
  · simpa only [List.append_assoc, List.nil_append] using ha
  · simpa only [List.append_assoc, List.nil_append] using hl
  · simpa only [List.append_assoc, List.nil_append] using h
  · simpa only [List.append_assoc, List.nil_append] using ha
  · simpa only [List.append_assoc, List.nil_append] using hl
  · simpa only [List.append_assoc, List.nil_append] using h
  · simpa only [List.append_assoc, List.nil_append] using ha
  · simpa only [List.append_assoc, List.nil_append] using hl

private theorem concat_tod_small (x y z : Nat) (hx : x < 24) (hy : y < 60) (hz : z < 60) :
    CONCAT_TOD .i32 x y z 0 = .ok (((x * 60 + y) * 60 + z) * 1000000000 : Nat) := by
  unfold CONCAT_TOD
  rw [u32_small (by omega), u32_small (by omega), u32_small (by omega), show (IntTy.u32.wrap 0).toNat = 0 by decide,
    (C35_partial .i32 (.inr (.inr (.inl rfl)))).1 x y z 0 ⟨hx, hy, hz, .inl (by omega)⟩]
  refine congrArg Res.ok ?_
  generalize (x * 60 + y) * 60 + z = q
  push_cast
  ring

private theorem readTod_text (p : Profile) {mem : List Nat} {n : Nat} (hn : n < 86400000000000) (h : Holds mem (timeText n)) :
    readTod p mem = .ok n := by
  have ha := ascii_time n
  have hlen := timeText_length n hn
  have hll : len codec8 (some mem) = .ok ((timeText n).length : Int) := len_ascii h ha (by omega)
  have hl2 : (timeText n).length ≤ 2048 := by omega
  have fl := fraction_length (n % 1000000000) (by omega)
  obtain ⟨x, hx⟩ : ∃ x, n / 3600000000000 = x := ⟨_, rfl⟩
  obtain ⟨y, hy⟩ : ∃ y, n / 60000000000 % 60 = y := ⟨_, rfl⟩
  obtain ⟨z, hz⟩ : ∃ z, n / 1000000000 % 60 = z := ⟨_, rfl⟩
  obtain ⟨f, hf⟩ : ∃ f, n % 1000000000 = f := ⟨_, rfl⟩
  have e : timeText n = padded 2 x ++ [58] ++ padded 2 y ++ [58] ++ padded 2 z ++ fractionText f := by
    unfold timeText
    rw [hx, hy, hz, hf, show ascii ":" = [58] by decide]
  rw [e] at h ha hll hl2
  obtain ⟨e1, e2, e3⟩ := readTod_digits p (by omega) (by omega) (by omega) h ha hl2
  have lx : (padded 2 x).length = 2 := pad_len (by omega) (by omega)
  have ly : (padded 2 y).length = 2 := pad_len (by omega) (by omega)
  have lz : (padded 2 z).length = 2 := pad_len (by omega) (by omega)
  unfold readTod
  rw [e1, Res.bind_ok, e2, Res.bind_ok, e3, Res.bind_ok, concat_tod_small x y z (by omega) (by omega) (by omega), Res.bind_ok,
    hll, Res.bind_ok]
  by_cases h0 : f = 0
  · rw [if_pos (by simp [lx, ly, lz, fractionText, h0])]
    refine congrArg Res.ok ?_
    push_cast; omega
  · obtain ⟨ds, he, l1, l9, ad, hnum⟩ := fraction_digits (f := f) (by omega) h0
    rw [if_neg (by simp [lx, ly, lz, he]; omega)]
    have e' : padded 2 x ++ [58] ++ padded 2 y ++ [58] ++ padded 2 z ++ fractionText f =
        (padded 2 x ++ [58] ++ padded 2 y ++ [58] ++ padded 2 z ++ [46]) ++ ds := by rw [he]; simp only [List.append_assoc]
    rw [e'] at h ha ⊢
    have key := nanos_of p h ha (by simp [lx, ly, lz]) l1 l9 hnum (by omega)
    have add : ADD_TOD_TIME (((x * 60 + y) * 60 + z) * 1000000000 : Nat) f = .ok (n : Int) := by
      rw [(C39_datetime_arithmetic _ _).2.1, exactOrPanic,
        show (((((x * 60 + y) * 60 + z) * 1000000000 : Nat) : Int) + (f : Int)) = n by push_cast; omega,
        if_pos (by rw [i64_range]; omega)]
    obtain ⟨m1, f1, key⟩ := Res.bind_eq_ok.1 key
    obtain ⟨m2, f2, key⟩ := Res.bind_eq_ok.1 key
    obtain ⟨m3, f3, key⟩ := Res.bind_eq_ok.1 key
    rw [f1, Res.bind_ok, f2, Res.bind_ok, f3, Res.bind_ok, key, Res.bind_ok, add]

/-! ### C169 -/

/-- **C169**, DATE: the text of a DATE is read back as the midnight at which its day begins; only the first day of the range,
which begins before the range, cannot be read. -/
theorem C169_date_partial (p : Profile) (t : Int) (ht : IntTy.i64.InRange t) :
    ∃ mem, St.DATE_TO_STRING t = .ok mem ∧
      readDate p mem = if IntTy.i64.InRange (t - timeOfDay t) then .ok (t - timeOfDay t) else .panic := by
  obtain ⟨_, ⟨mem, e, _, h⟩, _⟩ := (C94_calendar t ht).1
  have hdt := day_tod t
  refine ⟨mem, e, ?_⟩
  rw [show t - timeOfDay t = dayOf t * D by omega]
  exact readDate_text p ht (b := []) (by rwa [List.append_nil]) (fun b hb => by cases hb) (by simp)

/-- **C169**, TOD: the text of a TOD is read back as the time of day, to the nanosecond. -/
theorem C169_tod (p : Profile) (t : Int) (ht : IntTy.i64.InRange t) :
    ∃ mem, St.TOD_TO_STRING t = .ok mem ∧ readTod p mem = .ok (timeOfDay t) := by
  obtain ⟨_, ⟨mem, e, _, h⟩, _⟩ := (C94_calendar t ht).2.1
  have hb := tod_bounds t
  unfold D at hb
  refine ⟨mem, e, ?_⟩
  rw [readTod_text p (by omega) h, Int.toNat_of_nonneg hb.1]

/-- **C169**, DT: the text of a DT is read back as the DT, to the nanosecond; only those of the first day of the range cannot
be read. -/
theorem C169_dt_partial (p : Profile) (t : Int) (ht : IntTy.i64.InRange t) :
    ∃ mem, St.DT_TO_STRING t = .ok mem ∧
      readDt p mem = if IntTy.i64.InRange (t - timeOfDay t) then .ok t else .panic := by
  obtain ⟨_, ⟨mem, e, _, h⟩, _⟩ := (C94_calendar t ht).2.2
  have hb := tod_bounds t
  have hdt := day_tod t
  have hD : D = 86400000000000 := rfl
  have ld := dateText_length ht
  have lt := timeText_length (timeOfDay t).toNat (by omega)
  refine ⟨mem, e, ?_⟩
  have at' : Ascii (ascii "-" ++ timeText (timeOfDay t).toNat) := .append (by unfold Ascii; decide) (ascii_time _)
  have ha := (ascii_date (civilDate (dayOf t))).append at'
  have h' := h
  rw [List.append_assoc] at h'
  have l1 : (ascii "-").length = 1 := by decide
  have lall : (dateText (civilDate (dayOf t)) ++ (ascii "-" ++ timeText (timeOfDay t).toNat)).length =
      11 + (timeText (timeOfDay t).toNat).length := by simp only [List.length_append]; omega
  unfold readDt
  rw [readDate_text p ht h' at' (by simp only [List.length_append]; omega), show t - timeOfDay t = dayOf t * D by omega]
  by_cases hr : IntTy.i64.InRange (dayOf t * D)
  · rw [if_pos hr, if_pos hr, Res.bind_ok, len_ascii h' ha (by omega), Res.bind_ok]
    obtain ⟨m1, e1, _, h1⟩ := mid_ascii p h' ha (by omega) (timeText (timeOfDay t).toNat).length 12 (by omega) (by omega) (by omega)
    rw [← List.append_assoc, show (12 - 1 : Nat) = (dateText (civilDate (dayOf t)) ++ ascii "-").length by
      rw [List.length_append]; omega, List.drop_left, List.take_of_length_le (Nat.le_refl _)] at h1
    rw [show ((dateText (civilDate (dayOf t)) ++ (ascii "-" ++ timeText (timeOfDay t).toNat)).length : Int) - 11 =
      ((timeText (timeOfDay t).toNat).length : Int) by rw [lall]; push_cast; omega,
      show St.MID p codec8 (some mem) ((timeText (timeOfDay t).toNat).length : Int) 12 = .ok m1 from e1, Res.bind_ok,
      readTod_text p (by omega) h1, Res.bind_ok, Int.toNat_of_nonneg hb.1, C34_concat,
      show dayOf (dayOf t * D) = dayOf t by unfold dayOf D; omega,
      show timeOfDay (timeOfDay t) = timeOfDay t by unfold timeOfDay; omega, hdt, if_pos ht]
  · rw [if_neg hr, if_neg hr]; rfl

/-- **C169** is false for the first day of the range: the first DT has a text, which cannot be read. -/
theorem C169_refuted_first_day :
    ¬ ∀ (p : Profile) (t : Int) (mem : List Nat), IntTy.i64.InRange t → St.DT_TO_STRING t = .ok mem → readDt p mem = .ok t := by
  intro H
  have hr : IntTy.i64.InRange (-9223372036854775808) := by decide
  obtain ⟨mem, e, h⟩ := C169_dt_partial .debug (-9223372036854775808) hr
  rw [H .debug _ mem hr e, if_neg (by decide)] at h
  cases h

/-- **C169**, a date that is typed in: any string that begins with four digits, a character, two digits, a character and two
digits is read as the midnight of that date if there is such a date in the range, and the DATE has the text that was typed in if
the separators are '-'; otherwise the program stops. -/
theorem C169_typed_partial (p : Profile) (mem b : List Nat) (y m d c1 c2 : Nat) (hy : y ≤ 9999) (hm : m ≤ 99) (hd : d ≤ 99)
    (h : Holds mem (padded 4 y ++ [c1] ++ padded 2 m ++ [c2] ++ padded 2 d ++ b))
    (ha : ∀ u ∈ c1 :: c2 :: b, u < 128) (hl : b.length ≤ 2000) :
    (∀ t, readDate p mem = .ok t → timeOfDay t = 0 ∧ civilDate (dayOf t) = ⟨y, m, d⟩ ∧
      ∃ out, St.DATE_TO_STRING t = .ok out ∧ Holds out (padded 4 y ++ [45] ++ padded 2 m ++ [45] ++ padded 2 d)) ∧
    (∀ k, civilDate k = ⟨y, m, d⟩ → IntTy.i64.InRange (k * D) → readDate p mem = .ok (k * D)) ∧
    ((¬ ∃ k, civilDate k = ⟨y, m, d⟩ ∧ IntTy.i64.InRange (k * D)) → readDate p mem = .panic) := by
  have hpos := h.1
  have ly : (padded 4 y).length = 4 := pad_len (by omega) (by omega)
  have lm : (padded 2 m).length = 2 := pad_len (by omega) (by omega)
  have ld : (padded 2 d).length = 2 := pad_len (by omega) (by omega)
  have hasc : Ascii (padded 4 y ++ [c1] ++ padded 2 m ++ [c2] ++ padded 2 d ++ b) := by
    intro u hu
    refine ⟨Nat.pos_of_ne_zero (hpos u hu), ?_⟩
    simp only [List.mem_append, List.mem_singleton] at hu
    rcases hu with ((((hu | hu) | hu) | hu) | hu) | hu
    · exact (ascii_padded _ _ u hu).2
    · exact ha u (by simp [hu])
    · exact (ascii_padded _ _ u hu).2
    · exact ha u (by simp [hu])
    · exact (ascii_padded _ _ u hu).2
    · exact ha u (by simp [hu])
  have e : readDate p mem = concat_date y m d := by
    rw [readDate_digits p (by omega) (by omega) (by omega) h hasc (by simp [ly, lm, ld]; omega),
      concat_date_small y m d (by omega) (by omega) (by omega)]
  obtain ⟨k1, k2⟩ := C33_concat_date y m d
  rw [e]
  refine ⟨fun t ht => ?_, k1, k2⟩
  by_cases hex : ∃ k, civilDate k = ⟨y, m, d⟩ ∧ IntTy.i64.InRange (k * D)
  · obtain ⟨k, hk, hr⟩ := hex
    rw [k1 k hk hr] at ht
    have ht := (Res.ok.inj ht).symm
    subst ht
    have hday : dayOf (k * D) = k := by unfold dayOf D; omega
    refine ⟨by unfold timeOfDay D; omega, by rw [hday]; exact hk, ?_⟩
    obtain ⟨_, ⟨out, eo, _, ho⟩, _⟩ := (C94_calendar (k * D) hr).1
    rw [hday, hk] at ho
    exact ⟨out, eo, ho⟩
  · rw [k2 hex] at ht; cases ht

/-- **C169**: not only such strings are accepted. A sign in the place of a digit is accepted: '2000-+1-01' is read as 1 January
2000, although no DATE has this text. -/
theorem C169_refuted :
    ¬ ∀ (p : Profile) (mem s : List Nat) (t : Int), Holds mem s → s.length = 10 → readDate p mem = .ok t →
      ∃ out, St.DATE_TO_STRING t = .ok out ∧ Holds out s := by
  intro H
  have hh : Holds (ascii "2000-+1-01" ++ [0]) (ascii "2000-+1-01") := ⟨by decide, [], rfl⟩
  obtain ⟨out, e, ho⟩ := H .debug _ _ 946684800000000000 hh (by decide) (by decide +kernel)
  obtain ⟨_, ⟨out', e', _, ho'⟩, _⟩ := (C94_calendar 946684800000000000 (by decide)).1
  rw [e] at e'
  have := Res.ok.inj e'
  subst this
  rw [← civil_eq] at ho'
  exact absurd (holds_unique ho ho') (by decide +kernel)

-- The texts of an instant with nanoseconds and of its day and time of day, read back.
example : readDt .release (ascii "2024-02-29-23:59:58.000000007" ++ [0]) = .ok 1709251198000000007 ∧
    readTod .debug (ascii "23:59:58.120" ++ [0]) = .ok 86398120000000 ∧
    readDate .debug (ascii "2024-02-29" ++ [0]) = .ok 1709164800000000000 ∧
    readDate .debug (ascii "2023-02-29" ++ [0]) = .panic := by decide +kernel

end Verif
