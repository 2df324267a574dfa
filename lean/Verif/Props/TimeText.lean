import Verif.Proofs.TimeText
import Verif.Props.IntText
import Verif.Props.DateTime
/-
C61-C63: durations, dates and times of day as text.  C56 for these functions.  C67: TIME().
A buffer of `n` zero bytes is `List.replicate n 0`; the Structured Text functions use n = 2049.
-/
namespace Verif
open Spec Chrono

/-! ### C61: non-negative durations -/

theorem partsOf_nonneg {t : Int} (h0 : 0 ≤ t) (h1 : t < 2 ^ 63) {c : Dhms} (hc : c.Proper)
    (ht : (c.nanos : Int) = t) : partsOf t = c := by
  apply nanos_injective (partsOf_proper t) hc
  have hr := partsOf_rest t
  have hd : ((partsOf t).d : Int) = dayOf t := by
    show (((IntTy.u32.wrap (t.tdiv D)).toNat : Nat) : Int) = dayOf t
    have : t.tdiv D = dayOf t := by
      rw [Int.tdiv_eq_ediv_of_nonneg h0]; rfl
    rw [this, IntTy.wrap_of_inRange .u32 (by decide)]
    · unfold dayOf; omega
    · unfold dayOf; simp [IntTy.InRange, IntTy.lo, IntTy.hi, IntTy.u32]; omega
  rw [hd, day_tod] at hr
  omega

/-- Every duration has exactly one decomposition into d/h/m/s/ms/us/ns. -/
theorem C61_decomposition (t : Nat) : ∃ c : Dhms, c.Proper ∧ c.nanos = t ∧
    ∀ c' : Dhms, c'.Proper → c'.nanos = t → c' = c := by
  let c : Dhms := ⟨t / 86400000000000, t / 3600000000000 % 24, t / 60000000000 % 60,
    t / 1000000000 % 60, t / 1000000 % 1000, t / 1000 % 1000, t % 1000⟩
  have h1 : c.Proper := by unfold c Dhms.Proper; dsimp only; omega
  have h2 : c.nanos = t := by unfold c Dhms.nanos; dsimp only; omega
  exact ⟨c, h1, h2, fun c' h1' h2' => nanos_injective h1' h1 (by rw [h2', h2])⟩

/-- **C61**: TIME_TO_STRING of a non-negative duration writes the non-zero components of its
decomposition, and a terminated string results. -/
theorem C61_text (t : Int) (h0 : 0 ≤ t) (h1 : t < 2 ^ 63) (c : Dhms) (hc : c.Proper)
    (ht : (c.nanos : Int) = t) (n : Nat) (hn : 117 ≤ n) :
    ∃ mem, TIME_TO_STRING_EXT t (List.replicate n 0) = .ok mem ∧ Holds mem c.text ∧
      mem = c.text ++ List.replicate (n - c.text.length) 0 := by
  have hp := partsOf_nonneg h0 h1 hc ht
  have hl := partsOf_length t
  have := time_to_string_zero t n [] (by omega) (by simp only [List.length_nil]; omega)
  rw [hp] at this hl
  simp only [List.append_nil] at this
  refine ⟨_, this, ⟨text_ne_zero c, List.replicate (n - c.text.length - 1) 0, ?_⟩, rfl⟩
  rw [← List.replicate_succ, show n - c.text.length - 1 + 1 = n - c.text.length by omega]

/-- **C61**: different non-negative durations give different strings. -/
theorem C61_injective (t t' : Int) (h : 0 ≤ t ∧ t < 2 ^ 63) (h' : 0 ≤ t' ∧ t' < 2 ^ 63)
    (n n' : Nat) (hn : 117 ≤ n) (hn' : 117 ≤ n') (mem mem' s : List Nat)
    (r : TIME_TO_STRING_EXT t (List.replicate n 0) = .ok mem)
    (r' : TIME_TO_STRING_EXT t' (List.replicate n' 0) = .ok mem') (hs : Holds mem s)
    (hs' : Holds mem' s) : t = t' := by
  obtain ⟨c, hc, hcn, _⟩ := C61_decomposition t.toNat
  obtain ⟨c', hc', hcn', _⟩ := C61_decomposition t'.toNat
  obtain ⟨m, e1, e2, _⟩ := C61_text t h.1 h.2 c hc (by omega) n hn
  obtain ⟨m', e1', e2', _⟩ := C61_text t' h'.1 h'.2 c' hc' (by omega) n' hn'
  rw [r] at e1; rw [r'] at e1'
  cases e1; cases e1'
  have := (holds_unique e2 hs).trans (holds_unique e2' hs').symm
  have := text_injective this
  rw [this] at hcn
  omega

/-- 1 day 3 h 5 ms. -/
example : TIME_TO_STRING_EXT 97200005000000 (List.replicate 120 0) =
    .ok (ascii "1d3h5ms" ++ List.replicate 113 0) := by decide +kernel
example : (⟨1, 3, 0, 0, 5, 0, 0⟩ : Dhms).Proper ∧ (⟨1, 3, 0, 0, 5, 0, 0⟩ : Dhms).nanos = 97200005000000 := by
  simp [Dhms.Proper, Dhms.nanos]

/-! ### C62: negative durations -/

/-- C62 is false: T#-1ns and T#23h59m59s999ms999us999ns give the same string. -/
theorem C62_refuted :
    ¬ (∀ (t t' : Int) (mem : List Nat), IntTy.i64.InRange t → IntTy.i64.InRange t' → t < 0 →
        TIME_TO_STRING_EXT t (List.replicate 117 0) = .ok mem →
        TIME_TO_STRING_EXT t' (List.replicate 117 0) = .ok mem → t = t') := by
  intro h
  have := h (-1) 86399999999999 (ascii "23h59m59s999ms999us999ns" ++ List.replicate 93 0)
    (by decide) (by decide) (by decide) (by decide +kernel) (by decide +kernel)
  omega

theorem days_neg {t : Int} (ht : IntTy.i64.InRange t) (h0 : t < 0) :
    ((partsOf t).d : Int) = if -D < t then 0 else 2 ^ 32 - (-t) / D := by
  rw [i64_range] at ht
  show (((IntTy.u32.wrap (t.tdiv D)).toNat : Nat) : Int) = _
  have hq : t.tdiv D = -((-t) / D) := by
    have : t = -(-t) := by omega
    rw [this, Int.neg_tdiv, Int.tdiv_eq_ediv_of_nonneg (by omega)]
    simp
  rw [hq]
  unfold D
  have hb : 0 ≤ (-t) / 86400000000000 ∧ (-t) / 86400000000000 ≤ 106752 := by omega
  have hw : IntTy.u32.wrap (-((-t) / 86400000000000)) = (-((-t) / 86400000000000)) % 4294967296 := by
    simp [IntTy.wrap, IntTy.u32]
  rw [hw]
  split
  · have : (-t) / 86400000000000 = 0 := by omega
    rw [this]; rfl
  · omega

/-- What TIME_TO_STRING does with a negative duration `t`: the part below the day is that of
`t` modulo one day (rounded down), the number of days is that of `t` rounded towards zero and
taken modulo 2^32; there is no sign. -/
theorem C62_text_partial (t : Int) (ht : IntTy.i64.InRange t) (h0 : t < 0) (n : Nat)
    (hn : 117 ≤ n) :
    ∃ (mem : List Nat) (c : Dhms), TIME_TO_STRING_EXT t (List.replicate n 0) = .ok mem ∧
      Holds mem c.text ∧ c.Proper ∧ (c.d : Int) = (if -D < t then 0 else 2 ^ 32 - (-t) / D) ∧
      (c.nanos : Int) = c.d * D + t % D := by
  have hl := partsOf_length t
  have := time_to_string_zero t n [] (by omega) (by simp only [List.length_nil]; omega)
  simp only [List.append_nil] at this
  refine ⟨_, partsOf t, this, ⟨text_ne_zero _,
    List.replicate (n - (partsOf t).text.length - 1) 0, ?_⟩, partsOf_proper t, days_neg ht h0,
    partsOf_rest t⟩
  rw [← List.replicate_succ, show n - (partsOf t).text.length - 1 + 1 = n - (partsOf t).text.length by omega]

/-- Exactly which durations share a string: `t` and `t` + 1 day for -1 day < `t` < 0. -/
theorem C62_collisions_partial (t t' : Int) (ht : IntTy.i64.InRange t) (ht' : IntTy.i64.InRange t')
    (hlt : t < t') (n : Nat) (hn : 117 ≤ n) :
    TIME_TO_STRING_EXT t (List.replicate n 0) = TIME_TO_STRING_EXT t' (List.replicate n 0) ↔
      -D < t ∧ t < 0 ∧ t' = t + D := by
  have run : ∀ t, TIME_TO_STRING_EXT t (List.replicate n 0) =
      .ok ((partsOf t).text ++ List.replicate (n - (partsOf t).text.length) 0) := by
    intro t
    have hl := partsOf_length t
    have := time_to_string_zero t n [] (by omega) (by simp only [List.length_nil]; omega)
    simpa only [List.append_nil] using this
  have hol : ∀ t, Holds ((partsOf t).text ++ List.replicate (n - (partsOf t).text.length) 0)
      (partsOf t).text := by
    intro t
    have hl := partsOf_length t
    refine ⟨text_ne_zero _, List.replicate (n - (partsOf t).text.length - 1) 0, ?_⟩
    rw [← List.replicate_succ,
      show n - (partsOf t).text.length - 1 + 1 = n - (partsOf t).text.length by omega]
  have heq : TIME_TO_STRING_EXT t (List.replicate n 0) = TIME_TO_STRING_EXT t' (List.replicate n 0) ↔
      partsOf t = partsOf t' := by
    constructor
    · intro h
      rw [run, run] at h
      have h := Res.ok.inj h
      have h2 := hol t'
      rw [← h] at h2
      exact text_injective (holds_unique (hol t) h2)
    · intro h; rw [run, run, h]
  rw [heq]
  have hr := partsOf_rest t
  have hr' := partsOf_rest t'
  have hb := tod_bounds t
  have hb' := tod_bounds t'
  have hpos : ∀ x : Int, IntTy.i64.InRange x → 0 ≤ x → ((partsOf x).d : Int) = x / D := by
    intro x hx h0
    rw [i64_range] at hx
    obtain ⟨c, hc, hcn, _⟩ := C61_decomposition x.toNat
    have := partsOf_nonneg h0 (by omega) hc (by omega)
    have h3 := partsOf_rest x
    rw [this] at h3
    have h4 := tod_bounds x
    rw [this]
    unfold timeOfDay D at *
    omega
  have hneg : ∀ x : Int, IntTy.i64.InRange x → x < 0 →
      ((partsOf x).d : Int) = if -D < x then 0 else 2 ^ 32 - (-x) / D := fun x hx h0 => days_neg hx h0
  have hsame : partsOf t = partsOf t' ↔
      ((partsOf t).d : Int) = (partsOf t').d ∧ timeOfDay t = timeOfDay t' := by
    constructor
    · intro h
      rw [h] at hr ⊢
      exact ⟨rfl, by omega⟩
    · rintro ⟨h1, h2⟩
      apply nanos_injective (partsOf_proper t) (partsOf_proper t')
      rw [h1, h2, ← hr'] at hr
      omega
  rw [hsame]
  have hx := (i64_range t).1 ht
  have hx' := (i64_range t').1 ht'
  have e1 := hpos t ht
  have e1' := hpos t' ht'
  have e2 := hneg t ht
  have e2' := hneg t' ht'
  generalize ((partsOf t).d : Int) = a at *
  generalize ((partsOf t').d : Int) = a' at *
  clear heq hr hr' hol run hsame hpos hneg
  unfold timeOfDay D at *
  rcases lt_or_ge t 0 with h | h
  · have e2 := e2 h
    rcases lt_or_ge t' 0 with h' | h'
    · have e2' := e2' h'
      split at e2 <;> split at e2' <;> omega
    · have e1' := e1' h'
      split at e2 <;> omega
  · have e1 := e1 h
    have e1' := e1' (by omega)
    omega

example : TIME_TO_STRING_EXT (-86400000000001) (List.replicate 117 0) =
    .ok (ascii "4294967295d23h59m59s999ms999us999ns" ++ List.replicate 82 0) := by decide +kernel

/-! ### C63: dates and times of day -/

theorem hundreds_eq {n : Nat} (h : n < 100) : write_hundreds n = padded 2 n := by
  unfold write_hundreds padded
  by_cases h1 : n < 10
  · rw [decimal_small n h1]
    simp; omega
  · rw [decimal_step n (by omega), decimal_small (n / 10) (by omega)]
    simp

theorem year_eq {n : Nat} (h : n ≤ 9999) :
    write_hundreds (n / 100) ++ write_hundreds (n % 100) = padded 4 n := by
  unfold write_hundreds padded
  by_cases h1 : n < 10
  · rw [decimal_small n h1]
    simp [List.replicate]; omega
  by_cases h2 : n < 100
  · rw [decimal_step n (by omega), decimal_small (n / 10) (by omega)]
    simp [List.replicate]; omega
  by_cases h3 : n < 1000
  · rw [decimal_step n (by omega), decimal_step (n / 10) (by omega),
      decimal_small (n / 10 / 10) (by omega)]
    simp; omega
  · rw [decimal_step n (by omega), decimal_step (n / 10) (by omega),
      decimal_step (n / 10 / 10) (by omega), decimal_small (n / 10 / 10 / 10) (by omega)]
    simp; omega

theorem numeral_padded (w n : Nat) : Numeral 10 (padded w n) n := by
  obtain ⟨ds, h1, h2, h3⟩ := numeral_decimal n
  unfold padded
  generalize w - (decimal n).length = k
  induction k with
  | zero => exact ⟨ds, h1, h2, h3⟩
  | succ k ih =>
    obtain ⟨ds', h1', h2', h3'⟩ := ih
    refine ⟨0 :: ds', ?_, by simp, ?_⟩
    · rw [List.replicate_succ, List.cons_append]
      exact .cons ⟨by omega, by omega⟩ h1'
    · rw [List.reverse_cons, Nat.ofDigits_append, ← h3']; simp

theorem padded_injective {w n n' : Nat} (h : padded w n = padded w n') : n = n' :=
  numeral_unique (by omega) (numeral_padded w n) (h ▸ numeral_padded w n')

theorem fields (k : Int) : (civil k).year = (civilDate k).year ∧
    (civil k).month = (civilDate k).month ∧ (civil k).day = (civilDate k).day := by
  rw [← civil_eq]; exact ⟨rfl, rfl, rfl⟩

theorem date_bounds (k : Int) : (civilDate k).month ≤ 12 ∧ 1 ≤ (civilDate k).month ∧
    1 ≤ (civilDate k).day ∧ (civilDate k).day ≤ 31 := by
  obtain ⟨hv, h1, h2⟩ := civilDate_valid k
  exact ⟨h2, h1, hv.1, Nat.le_trans hv.2 (daysIn_le _ _)⟩

theorem fmtDate_eq {t : Int} (ht : IntTy.i64.InRange t) :
    fmtDate (timestamp_nanos_utc t).date = dateText (civilDate (dayOf t)) := by
  have hy := year_range ht
  have hb := date_bounds (dayOf t)
  obtain ⟨h1, h2, h3⟩ := fields (dayOf t)
  rw [ts_date]
  unfold fmtDate dateText
  rw [h1, h2, h3, if_pos (by omega), year_eq (by omega), hundreds_eq (by omega),
    hundreds_eq (by omega)]
  rfl

theorem fmtTime_eq (t : Int) :
    fmtTime (timestamp_nanos_utc t).time = timeText (timeOfDay t).toNat := by
  have h1 := ts_secs t
  have h2 := ts_frac t
  have h3 := tod_bounds t
  unfold D at h3
  unfold fmtTime timeText NaiveTime.hour NaiveTime.minute NaiveTime.second
  dsimp only
  generalize (timestamp_nanos_utc t).time.secs = s at *
  generalize (timestamp_nanos_utc t).time.frac = f at *
  generalize timeOfDay t = n at *
  have hf : ¬ (f ≥ 1000000000) := by omega
  simp only [if_neg hf]
  rw [hundreds_eq (by omega), hundreds_eq (by omega),
    hundreds_eq (by omega), show s / 3600 = n.toNat / 3600000000000 by omega,
    show s / 60 % 60 = n.toNat / 60000000000 % 60 by omega,
    show s % 60 = n.toNat / 1000000000 % 60 by omega,
    show n.toNat % 1000000000 = f by omega, fractionText]
  simp only [fmtZeros_eq, Nat.dvd_iff_mod_eq_zero]
  rfl

theorem dateText_length {t : Int} (ht : IntTy.i64.InRange t) :
    (dateText (civilDate (dayOf t))).length = 10 := by
  have hy := year_range ht
  have hb := date_bounds (dayOf t)
  unfold dateText
  simp only [List.length_append]
  rw [padded_length 4 _ (by omega) (by omega), padded_length 2 _ (by omega) (by omega),
    padded_length 2 _ (by omega) (by omega)]
  rfl

theorem fraction_length (n : Nat) (h : n < 1000000000) :
    (fractionText n).length =
      if n = 0 then 0 else if 1000000 ∣ n then 4 else if 1000 ∣ n then 7 else 10 := by
  unfold fractionText
  split; · rfl
  split; · rw [List.length_append, padded_length 3 _ (by omega) (by omega)]; rfl
  split; · rw [List.length_append, padded_length 6 _ (by omega) (by omega)]; rfl
  · rw [List.length_append, padded_length 9 _ (by omega) (by omega)]; rfl

theorem timeText_length (n : Nat) (h : n < 86400000000000) :
    8 ≤ (timeText n).length ∧ (timeText n).length ≤ 18 := by
  have := fraction_length (n % 1000000000) (by omega)
  unfold timeText
  simp only [List.length_append]
  rw [padded_length 2 _ (by omega) (by omega), padded_length 2 _ (by omega) (by omega),
    padded_length 2 _ (by omega) (by omega), this, show (ascii ":").length = 1 from rfl]
  (repeat' split) <;> omega

/-- **C63**, DATE_TO_STRING: YYYY-MM-DD of the date of the timestamp. -/
theorem C63_date (t : Int) (ht : IntTy.i64.InRange t) (dest : List Nat) (hd : 81 ≤ dest.length) :
    DATE_TO_STRING_EXT t (some dest) = .ok (dateText (civilDate (dayOf t)) ++ dest.drop 10) := by
  have hl := dateText_length ht
  unfold DATE_TO_STRING_EXT
  rw [fmtDate_eq ht, writeBuf_ok hd (by omega), hl]

/-- **C63**, TOD_TO_STRING: HH:MM:SS and fraction of the time of day of the timestamp. -/
theorem C63_tod (t : Int) (dest : List Nat) (hd : 81 ≤ dest.length) :
    TOD_TO_STRING_EXT t (some dest) = .ok (timeText (timeOfDay t).toNat ++
      dest.drop (timeText (timeOfDay t).toNat).length) := by
  have hb := tod_bounds t
  unfold D at hb
  have hl := timeText_length (timeOfDay t).toNat (by omega)
  unfold TOD_TO_STRING_EXT
  rw [fmtTime_eq, writeBuf_ok hd (by omega)]

/-- **C63**, DT_TO_STRING: date and time joined by '-'. -/
theorem C63_dt (t : Int) (ht : IntTy.i64.InRange t) (dest : List Nat) (hd : 81 ≤ dest.length) :
    let text := dateText (civilDate (dayOf t)) ++ ascii "-" ++ timeText (timeOfDay t).toNat
    DT_TO_STRING_EXT t (some dest) = .ok (text ++ dest.drop text.length) := by
  have hb := tod_bounds t
  unfold D at hb
  have hl := timeText_length (timeOfDay t).toNat (by omega)
  have hl' := dateText_length ht
  unfold DT_TO_STRING_EXT
  dsimp only
  rw [fmtTime_eq, fmtDate_eq ht]
  exact writeBuf_ok hd (by simp only [List.length_append, List.length_singleton]; omega)

/-- The text of a date determines the date. -/
theorem dateText_injective {d d' : Date} (hy : 0 ≤ d.year ∧ d.year ≤ 9999)
    (hy' : 0 ≤ d'.year ∧ d'.year ≤ 9999) (hm : d.month ≤ 99) (hm' : d'.month ≤ 99)
    (h : dateText d = dateText d') : d = d' := by
  unfold dateText at h
  simp only [List.append_assoc] at h
  obtain ⟨h1, h⟩ := List.append_inj h (by
    rw [padded_length 4 _ (by omega) (by omega), padded_length 4 _ (by omega) (by omega)])
  obtain ⟨_, h⟩ := List.append_inj h rfl
  obtain ⟨h2, h⟩ := List.append_inj h (by
    rw [padded_length 2 _ (by omega) (by omega), padded_length 2 _ (by omega) (by omega)])
  obtain ⟨_, h3⟩ := List.append_inj h rfl
  have := padded_injective h1
  have := padded_injective h2
  have := padded_injective h3
  obtain ⟨y, m, d⟩ := d
  obtain ⟨y', m', d'⟩ := d'
  simp only at *
  congr 1
  omega

theorem fractionText_injective {n n' : Nat} (h : n < 1000000000) (h' : n' < 1000000000)
    (he : fractionText n = fractionText n') : n = n' := by
  have hl := congrArg List.length he
  rw [fraction_length n h, fraction_length n' h'] at hl
  unfold fractionText at he
  have dot : ∀ {a b : List Nat}, ascii "." ++ a = ascii "." ++ b → a = b :=
    fun h => List.append_cancel_left h
  by_cases a1 : n = 0
  · by_cases b1 : n' = 0
    · omega
    · exfalso; simp only [a1, b1, if_true, if_false] at hl; revert hl; (repeat' split) <;> omega
  by_cases b1 : n' = 0
  · exfalso; simp only [a1, b1, if_true, if_false] at hl; revert hl; (repeat' split) <;> omega
  simp only [a1, b1, if_false] at he hl
  by_cases a2 : 1000000 ∣ n
  · by_cases b2 : 1000000 ∣ n'
    · simp only [a2, b2, if_true] at he
      have := padded_injective (dot he)
      omega
    · exfalso; simp only [a2, b2, if_true, if_false] at hl; revert hl; (repeat' split) <;> omega
  by_cases b2 : 1000000 ∣ n'
  · exfalso; simp only [a2, b2, if_true, if_false] at hl; revert hl; (repeat' split) <;> omega
  simp only [a2, b2, if_false] at he hl
  by_cases a3 : 1000 ∣ n
  · by_cases b3 : 1000 ∣ n'
    · simp only [a3, b3, if_true] at he
      have := padded_injective (dot he)
      omega
    · exfalso; simp only [a3, b3, if_true, if_false] at hl; omega
  by_cases b3 : 1000 ∣ n'
  · exfalso; simp only [a3, b3, if_true, if_false] at hl; omega
  simp only [a3, b3, if_false] at he
  exact padded_injective (dot he)

/-- The text of a time of day determines it. -/
theorem timeText_injective {n n' : Nat} (h : n < 86400000000000) (h' : n' < 86400000000000)
    (he : timeText n = timeText n') : n = n' := by
  unfold timeText at he
  simp only [List.append_assoc] at he
  obtain ⟨h1, he⟩ := List.append_inj he (by
    rw [padded_length 2 _ (by omega) (by omega), padded_length 2 _ (by omega) (by omega)])
  obtain ⟨_, he⟩ := List.append_inj he rfl
  obtain ⟨h2, he⟩ := List.append_inj he (by
    rw [padded_length 2 _ (by omega) (by omega), padded_length 2 _ (by omega) (by omega)])
  obtain ⟨_, he⟩ := List.append_inj he rfl
  obtain ⟨h3, he⟩ := List.append_inj he (by
    rw [padded_length 2 _ (by omega) (by omega), padded_length 2 _ (by omega) (by omega)])
  have := padded_injective h1
  have := padded_injective h2
  have := padded_injective h3
  have := fractionText_injective (by omega) (by omega) he
  omega

/-- Digits, '-', ':' and '.' are not zero. -/
theorem padded_ne_zero (w n : Nat) : ∀ b ∈ padded w n, b ≠ 0 := by
  intro b hb
  obtain ⟨d, hd⟩ := numeral_mem (numeral_padded w n) b hb
  unfold IsDigit at hd; omega

theorem dateText_ne_zero (d : Date) : ∀ b ∈ dateText d, b ≠ 0 := by
  intro b hb
  unfold dateText at hb
  simp only [List.mem_append] at hb
  have hm : ∀ b ∈ ascii "-", b ≠ 0 := by decide
  rcases hb with (((hb | hb) | hb) | hb) | hb
  · exact padded_ne_zero _ _ b hb
  · exact hm b hb
  · exact padded_ne_zero _ _ b hb
  · exact hm b hb
  · exact padded_ne_zero _ _ b hb

theorem timeText_ne_zero (n : Nat) : ∀ b ∈ timeText n, b ≠ 0 := by
  intro b hb
  unfold timeText fractionText at hb
  have hm : ∀ b ∈ ascii ":", b ≠ 0 := by decide
  have hp : ∀ b ∈ ascii ".", b ≠ 0 := by decide
  simp only [List.mem_append] at hb
  rcases hb with ((((hb | hb) | hb) | hb) | hb) | hb
  · exact padded_ne_zero _ _ b hb
  · exact hm b hb
  · exact padded_ne_zero _ _ b hb
  · exact hm b hb
  · exact padded_ne_zero _ _ b hb
  · (repeat' split at hb)
    · cases hb
    all_goals
      rcases List.mem_append.1 hb with hb | hb
      · exact hp b hb
      · exact padded_ne_zero _ _ b hb

/-- **C63**: the texts can be read back.  Into zeroed buffers, two timestamps give the same
DATE text iff they are on the same day, the same TOD text iff they have the same time of day,
and the same DT text iff they are equal. -/
theorem C63_recoverable (t t' : Int) (ht : IntTy.i64.InRange t) (ht' : IntTy.i64.InRange t')
    (n : Nat) (hn : 81 ≤ n) :
    (DATE_TO_STRING_EXT t (some (List.replicate n 0)) = DATE_TO_STRING_EXT t' (some (List.replicate n 0))
      ↔ dayOf t = dayOf t') ∧
    (TOD_TO_STRING_EXT t (some (List.replicate n 0)) = TOD_TO_STRING_EXT t' (some (List.replicate n 0))
      ↔ timeOfDay t = timeOfDay t') ∧
    (DT_TO_STRING_EXT t (some (List.replicate n 0)) = DT_TO_STRING_EXT t' (some (List.replicate n 0))
      ↔ t = t') := by
  have hz : 81 ≤ (List.replicate n 0).length := by simpa using hn
  have hol : ∀ text : List Nat, (∀ b ∈ text, b ≠ 0) → text.length < 81 →
      Holds (text ++ (List.replicate n 0).drop text.length) text := by
    intro text h1 h2
    rw [holds_written h1, List.getElem?_replicate, if_pos (by omega)]
  have inj : ∀ a b : List Nat, (∀ x ∈ a, x ≠ 0) → (∀ x ∈ b, x ≠ 0) → a.length < 81 →
      b.length < 81 → (Res.ok (a ++ (List.replicate n 0).drop a.length) =
        .ok (b ++ (List.replicate n 0).drop b.length)) → a = b := by
    intro a b h1 h2 h3 h4 h
    have h := Res.ok.inj h
    have h5 := hol a h1 h3
    rw [h] at h5
    exact holds_unique h5 (hol b h2 h4)
  have hb := tod_bounds t
  have hb' := tod_bounds t'
  unfold D at hb hb'
  have hl := dateText_length ht
  have hl' := dateText_length ht'
  have htl := timeText_length (timeOfDay t).toNat (by omega)
  have htl' := timeText_length (timeOfDay t').toNat (by omega)
  have hdate : dateText (civilDate (dayOf t)) = dateText (civilDate (dayOf t')) → dayOf t = dayOf t' := by
    intro h
    have hy := year_range ht
    have hy' := year_range ht'
    have hm := date_bounds (dayOf t)
    have hm' := date_bounds (dayOf t')
    exact civilDate_inj (dateText_injective (by omega) (by omega) (by omega) (by omega) h)
  have htime : timeText (timeOfDay t).toNat = timeText (timeOfDay t').toNat →
      timeOfDay t = timeOfDay t' := by
    intro h
    have := timeText_injective (by omega) (by omega) h
    omega
  refine ⟨⟨fun h => ?_, fun h => ?_⟩, ⟨fun h => ?_, fun h => ?_⟩, ⟨fun h => ?_, fun h => by rw [h]⟩⟩
  · have e1 := C63_date t ht _ hz
    have e2 := C63_date t' ht' _ hz
    rw [← hl] at e1; rw [← hl'] at e2
    rw [e1, e2] at h
    exact hdate (inj _ _ (dateText_ne_zero _) (dateText_ne_zero _) (by omega) (by omega) h)
  · rw [C63_date t ht _ hz, C63_date t' ht' _ hz, h]
  · rw [C63_tod t _ hz, C63_tod t' _ hz] at h
    exact htime (inj _ _ (timeText_ne_zero _) (timeText_ne_zero _) (by omega) (by omega) h)
  · rw [C63_tod t _ hz, C63_tod t' _ hz, h]
  · have e1 := C63_dt t ht _ hz
    have e2 := C63_dt t' ht' _ hz
    dsimp only at e1 e2
    rw [e1, e2] at h
    have hm : ∀ b ∈ ascii "-", b ≠ 0 := by decide
    have nz : ∀ d k, ∀ x ∈ dateText d ++ ascii "-" ++ timeText k, x ≠ 0 := by
      intro d k x hx
      simp only [List.mem_append] at hx
      rcases hx with (hx | hx) | hx
      · exact dateText_ne_zero _ x hx
      · exact hm x hx
      · exact timeText_ne_zero _ x hx
    have hlen : (ascii "-").length = 1 := rfl
    have := inj _ _ (nz _ _) (nz _ _) (by simp only [List.length_append]; omega)
      (by simp only [List.length_append]; omega) h
    rw [List.append_assoc, List.append_assoc] at this
    obtain ⟨h1, h2⟩ := List.append_inj this (by omega)
    obtain ⟨_, h2⟩ := List.append_inj h2 rfl
    have a1 := hdate h1
    have a2 := htime h2
    have := day_tod t
    have := day_tod t'
    rw [a1, a2] at *
    omega

/-- 2000-02-29 12:34:56.789. -/
example : DT_TO_STRING_EXT 951827696789000000 (some (List.replicate 81 0)) =
    .ok (ascii "2000-02-29-12:34:56.789" ++ List.replicate 58 0) := by decide +kernel
example : TOD_TO_STRING_EXT (-1) (some (List.replicate 81 0)) =
    .ok (ascii "23:59:59.999999999" ++ List.replicate 63 0) := by decide +kernel

/-! ### C56 for these functions -/

/-- C56 is false here too: TIME_TO_STRING(T#1s) over 'abc' continues behind the old content of
the first part ('1sc'), and DATE_TO_STRING keeps what is behind the date. -/
theorem C56_times_refuted :
    ¬ (∀ (dest out : List Nat), 117 ≤ dest.length →
        TIME_TO_STRING_EXT 1000000000 dest = .ok out → Holds out (ascii "1s")) ∧
    ¬ (∀ (dest out : List Nat), 81 ≤ dest.length →
        DATE_TO_STRING_EXT 0 (some dest) = .ok out → Holds out (ascii "1970-01-01")) := by
  constructor
  · intro h
    have h1 := h (ascii "abc" ++ List.replicate 114 0) (ascii "1sc" ++ List.replicate 114 0)
      (by decide) (by decide +kernel)
    have h2 : Holds (ascii "1sc" ++ List.replicate 114 0) (ascii "1sc") :=
      ⟨by decide, List.replicate 113 0, by decide⟩
    have h3 := congrArg List.length (holds_unique h1 h2)
    revert h3; decide +kernel
  · intro h
    have h1 := h (List.replicate 11 65 ++ List.replicate 70 0)
      (ascii "1970-01-01A" ++ List.replicate 70 0) (by decide) (by decide +kernel)
    have h2 : Holds (ascii "1970-01-01A" ++ List.replicate 70 0) (ascii "1970-01-01A") :=
      ⟨by decide, List.replicate 69 0, by decide⟩
    have h3 := congrArg List.length (holds_unique h1 h2)
    revert h3; decide +kernel

/-- What is true: the date and time conversions leave exactly the text iff the byte behind it
was zero before; TIME_TO_STRING does if the first 37 bytes were zero. -/
theorem C56_times_partial (t : Int) (ht : IntTy.i64.InRange t) (dest out : List Nat)
    (hd : 81 ≤ dest.length) :
    (DATE_TO_STRING_EXT t (some dest) = .ok out →
      (Holds out (dateText (civilDate (dayOf t))) ↔ dest[10]? = some 0)) ∧
    (TOD_TO_STRING_EXT t (some dest) = .ok out →
      (Holds out (timeText (timeOfDay t).toNat) ↔
        dest[(timeText (timeOfDay t).toNat).length]? = some 0)) ∧
    (DT_TO_STRING_EXT t (some dest) = .ok out →
      let text := dateText (civilDate (dayOf t)) ++ ascii "-" ++ timeText (timeOfDay t).toNat
      (Holds out text ↔ dest[text.length]? = some 0)) ∧
    (∀ (k : Nat) (rest : List Nat), 37 ≤ k → 117 ≤ k + rest.length →
      ∃ text tail, TIME_TO_STRING_EXT t (List.replicate k 0 ++ rest) = .ok (text ++ 0 :: tail) ∧
        TIME_TO_STRING_EXT t (List.replicate 117 0) =
          .ok (text ++ 0 :: List.replicate (116 - text.length) 0) ∧ Holds (text ++ 0 :: tail) text) := by
  refine ⟨?_, ?_, ?_, ?_⟩
  · intro h
    rw [C63_date t ht dest hd] at h
    have hl := dateText_length ht
    have hw := holds_written (dest := dest) (dateText_ne_zero (civilDate (dayOf t)))
    rw [hl] at hw
    rw [← Res.ok.inj h]
    exact hw
  · intro h
    rw [C63_tod t dest hd] at h
    rw [← Res.ok.inj h]
    exact holds_written (timeText_ne_zero _)
  · intro h
    have e := C63_dt t ht dest hd
    dsimp only at e ⊢
    rw [e] at h
    rw [← Res.ok.inj h]
    apply holds_written
    have hm : ∀ b ∈ ascii "-", b ≠ 0 := by decide
    intro x hx
    simp only [List.mem_append] at hx
    rcases hx with (hx | hx) | hx
    · exact dateText_ne_zero _ x hx
    · exact hm x hx
    · exact timeText_ne_zero _ x hx
  · intro k rest hk hroom
    have hl := partsOf_length t
    have e := time_to_string_zero t k rest (by omega) (by omega)
    have e' := time_to_string_zero t 117 [] (by omega) (by simp only [List.length_nil]; omega)
    refine ⟨(partsOf t).text, List.replicate (k - (partsOf t).text.length - 1) 0 ++ rest, ?_, ?_,
      text_ne_zero _, _, rfl⟩
    · rw [e, ← List.cons_append, ← List.replicate_succ,
        show k - (partsOf t).text.length - 1 + 1 = k - (partsOf t).text.length by omega]
    · simp only [List.append_nil] at e'
      rw [e', ← List.replicate_succ,
        show 116 - (partsOf t).text.length + 1 = 117 - (partsOf t).text.length by omega]

/-! ### C67: TIME() -/

/-- A reading of the local clock: at most 86399 whole seconds and less than 2 * 10^9
nanoseconds, where 10^9 and more stand for a leap second. -/
def ClockReading (now : NaiveTime) : Prop := now.secs < 86400 ∧ now.frac < 2000000000

/-- **C67**: TIME() is the number of nanoseconds since midnight, in both build profiles; it is
below 24 h (24 h + 1 s in a leap second), 0 at midnight, and two calls on one day differ by the
time between the readings. -/
theorem C67_time (p : Profile) (now : NaiveTime) (h : ClockReading now) :
    TIME p now = .ok (now.secs * 1000000000 + now.frac) ∧
    (now.secs * 1000000000 + now.frac : Int) < 86401000000000 ∧
    (now.frac < 1000000000 → (now.secs * 1000000000 + now.frac : Int) < D) ∧
    TIME p ⟨0, 0⟩ = .ok 0 ∧
    (∀ (later : NaiveTime) (a b : Int), ClockReading later → TIME p now = .ok a →
      TIME p later = .ok b →
      b - a = ((later.secs : Int) - now.secs) * 1000000000 + ((later.frac : Int) - now.frac)) := by
  have key : ∀ x : NaiveTime, ClockReading x →
      TIME p x = .ok (x.secs * 1000000000 + x.frac) := by
    rintro ⟨s, f⟩ ⟨h1, h2⟩
    simp only at h1 h2
    have ar : ∀ y : Int, -9223372036854775808 ≤ y ∧ y ≤ 9223372036854775807 →
        IntTy.i64.arith p y = .ok y := by
      intro y hy
      unfold IntTy.arith
      rw [if_pos ((i64_range y).2 hy)]
    unfold TIME
    dsimp only
    rw [ar _ (by omega), Res.bind_ok, ar _ (by omega)]
  refine ⟨key now h, ?_, ?_, ?_, ?_⟩
  · obtain ⟨h1, h2⟩ := h; omega
  · intro h3; obtain ⟨h1, h2⟩ := h; unfold D; omega
  · exact key ⟨0, 0⟩ ⟨by decide, by decide⟩
  · intro later a b hl ha hb
    rw [key now h] at ha
    rw [key later hl] at hb
    have := Res.ok.inj ha
    have := Res.ok.inj hb
    omega

example : ClockReading ⟨86399, 1999999999⟩ ∧ TIME .debug ⟨86399, 1999999999⟩ = .ok 86400999999999 :=
  ⟨⟨by decide, by decide⟩, by decide⟩

end Verif
