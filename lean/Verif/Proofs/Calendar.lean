import Verif.Model.Chrono
import Verif.Spec.Calendar
/-
The chrono calendar algorithm agrees with counting days.
-/
namespace Verif
open Chrono Spec

theorem isLeap_iff (y : Int) : isLeap y = true ↔ LeapYear y := by
  simp [isLeap, LeapYear]

/-- First day (days before 0000-01-01 count negative) of year `y`. -/
def yearStart (y : Int) : Int := 365 * y + (y + 3) / 4 - (y + 99) / 100 + (y + 399) / 400

def yearLen (leap : Bool) : Nat := if leap then 366 else 365

theorem yearStart_succ (y : Int) : yearStart (y + 1) = yearStart y + yearLen (isLeap y) := by
  unfold yearStart yearLen isLeap
  by_cases h4 : y % 4 = 0
  · by_cases h100 : y % 100 = 0
    · by_cases h400 : y % 400 = 0
      · simp [h4, h400]; omega
      · simp [h4, h100, h400]; omega
    · simp [h4, h100]; omega
  · simp [h4]; omega

theorem yearStart_strict {a b : Int} (h : a < b) : yearStart a + 365 ≤ yearStart b := by
  have : ∀ n : Nat, ∀ a : Int, yearStart a + 365 ≤ yearStart (a + 1 + n) := by
    intro n
    induction n with
    | zero =>
      intro a
      rw [show a + 1 + ((0 : Nat) : Int) = a + 1 by omega, yearStart_succ]
      unfold yearLen; split <;> omega
    | succ n ih =>
      intro a
      rw [show a + 1 + ((n + 1 : Nat) : Int) = a + 1 + n + 1 by omega, yearStart_succ (a + 1 + n)]
      have := ih a
      omega
  have h2 := this (b - a - 1).toNat a
  rwa [show a + 1 + ((b - a - 1).toNat : Int) = b by omega] at h2

/-- The year containing a day is unique. -/
theorem year_unique {y y' : Int} {o o' : Nat} (h : yearStart y + o = yearStart y' + o')
    (ho : o < yearLen (isLeap y)) (ho' : o' < yearLen (isLeap y')) : y = y' ∧ o = o' := by
  have hy := yearStart_succ y
  have hy' := yearStart_succ y'
  rcases Int.lt_trichotomy y y' with hl | he | hl
  · have : yearStart (y + 1) ≤ yearStart y' := by
      rcases Int.lt_or_eq_of_le (show y + 1 ≤ y' by omega) with h1 | h1
      · have := yearStart_strict h1; omega
      · rw [h1]; omega
    omega
  · subst he; exact ⟨rfl, by omega⟩
  · have : yearStart (y' + 1) ≤ yearStart y := by
      rcases Int.lt_or_eq_of_le (show y' + 1 ≤ y by omega) with h1 | h1
      · have := yearStart_strict h1; omega
      · rw [h1]; omega
    omega

theorem yearStart_nat (n : Nat) : yearStart n = 365 * n + yearDelta n := by
  unfold yearStart yearDelta; omega

theorem yearDelta_succ (n : Nat) : yearDelta n ≤ yearDelta (n + 1) ∧ yearDelta (n + 1) ≤ yearDelta n + 1 := by
  unfold yearDelta; omega

theorem yearDelta_le (n : Nat) (h : n ≤ 400) : yearDelta n ≤ 97 := by
  unfold yearDelta; omega

/-- `cycle_to_yo` finds the year of the cycle. -/
theorem cycle_to_yo_spec (c : Nat) (hc : c < 146097) :
    yearStart (cycle_to_yo c).1 + ((cycle_to_yo c).2 - 1 : Nat) = c ∧
    1 ≤ (cycle_to_yo c).2 ∧ (cycle_to_yo c).2 - 1 < yearLen (isLeap (cycle_to_yo c).1) := by
  have hlen : ∀ y : Nat, (yearLen (isLeap y) : Int) = 365 + yearDelta (y + 1) - yearDelta y := by
    intro y
    have h1 := yearStart_succ y
    have h2 := yearStart_nat (y + 1)
    rw [yearStart_nat] at h1
    rw [Int.natCast_add, Int.natCast_one] at h2
    omega
  suffices h : yearStart (cycle_to_yo c).1 + ((cycle_to_yo c).2 - 1 : Nat) = c ∧
    1 ≤ (cycle_to_yo c).2 ∧ ((cycle_to_yo c).2 - 1 : Nat) < (yearLen (isLeap (cycle_to_yo c).1) : Int) by
    exact ⟨h.1, h.2.1, by omega⟩
  rw [hlen, yearStart_nat]
  unfold cycle_to_yo
  simp only
  generalize hy : c / 365 = y
  generalize ho : c % 365 = o
  have hcy : c = 365 * y + o := by omega
  have hyle : y ≤ 400 := by omega
  split
  · rename_i h
    have hy1 : 1 ≤ y := by
      rcases Nat.eq_zero_or_pos y with rfl | h1
      · simp [yearDelta] at h
      · exact h1
    obtain ⟨z, rfl⟩ : ∃ z, y = z + 1 := ⟨y - 1, by omega⟩
    simp only [Nat.add_sub_cancel]
    have h1 := yearDelta_le z (by omega)
    have h2 := yearDelta_succ z
    refine ⟨?_, ?_, ?_⟩ <;> omega
  · rename_i h
    simp only
    have h2 := yearDelta_succ y
    refine ⟨?_, ?_, ?_⟩ <;> omega

theorem isLeap_add_400 (y k : Int) : isLeap (400 * k + y) = isLeap y := by
  unfold isLeap
  rw [show (400 * k + y) % 4 = y % 4 by omega, show (400 * k + y) % 100 = y % 100 by omega,
    show (400 * k + y) % 400 = y % 400 by omega]

theorem yearStart_add_400 (y k : Int) : yearStart (400 * k + y) = 146097 * k + yearStart y := by
  unfold yearStart; omega

/-- `from_num_days_from_ce` finds the year of a day (`days` counted from 0001-01-01 = day 1). -/
theorem from_days_spec (days : Int) :
    yearStart (NaiveDate.from_num_days_from_ce days).year +
      ((NaiveDate.from_num_days_from_ce days).ordinal - 1 : Nat) = days + 365 ∧
    1 ≤ (NaiveDate.from_num_days_from_ce days).ordinal ∧
    (NaiveDate.from_num_days_from_ce days).ordinal - 1 <
      yearLen (isLeap (NaiveDate.from_num_days_from_ce days).year) := by
  unfold NaiveDate.from_num_days_from_ce
  simp only
  have hc : ((days + 365) % 146097).toNat < 146097 := by omega
  obtain ⟨h1, h2, h3⟩ := cycle_to_yo_spec _ hc
  rw [show (days + 365) / 146097 * 400 + ((cycle_to_yo ((days + 365) % 146097).toNat).1 : Int) =
    400 * ((days + 365) / 146097) + ((cycle_to_yo ((days + 365) % 146097).toNat).1 : Int) by omega,
    yearStart_add_400, isLeap_add_400]
  refine ⟨?_, h2, h3⟩
  omega

/-- `num_days_from_ce` in terms of the start of the year. -/
theorem num_days_eq (d : NaiveDate) :
    d.num_days_from_ce = yearStart d.year - 366 + d.ordinal := by
  have e1 : ∀ x : Int, x * 1461 / 4 = 365 * x + x / 4 := by intro x; omega
  have e2 : ∀ x : Int, x / 100 / 4 = x / 400 := by intro x; omega
  have e3 : yearStart d.year = 365 * (d.year - 1) + 365 + ((d.year - 1) / 4 + 1) - ((d.year - 1) / 100 + 1) +
      ((d.year - 1) / 400 + 1) := by
    unfold yearStart
    rw [show (d.year + 3) / 4 = (d.year - 1) / 4 + 1 by omega,
      show (d.year + 99) / 100 = (d.year - 1) / 100 + 1 by omega,
      show (d.year + 399) / 400 = (d.year - 1) / 400 + 1 by omega]
    omega
  have e4 : ∀ x k : Int, (x + k * 400) / 4 = x / 4 + 100 * k := by intro x k; omega
  have e5 : ∀ x k : Int, (x + k * 400) / 100 = x / 100 + 4 * k := by intro x k; omega
  have e6 : ∀ x k : Int, (x + k * 400) / 400 = x / 400 + k := by intro x k; omega
  unfold NaiveDate.num_days_from_ce
  simp only
  rw [e1, e2, e3]
  generalize (if d.year - 1 < 0 then 1 + -(d.year - 1) / 400 else 0) = k
  rw [e4, e5, e6]
  omega

/-- `num_days_from_ce` undoes `from_num_days_from_ce`. -/
theorem num_days_from_days (days : Int) :
    (NaiveDate.from_num_days_from_ce days).num_days_from_ce = days := by
  rw [num_days_eq]
  have := from_days_spec days
  omega

/-- Calendar date of a chrono date. -/
def toDate (d : NaiveDate) : Date := ⟨d.year, d.month, d.day⟩

/-! ### Months -/

private def nextMd (leap : Bool) (md : Nat × Nat) : Nat × Nat :=
  if md.2 < (monthLengths leap).getD (md.1 - 1) 0 then (md.1, md.2 + 1) else (md.1 + 1, 1)

private theorem md_step (leap : Bool) : ∀ o, o < yearLen leap - 1 →
    ordToMd (monthLengths leap) 1 (o + 1) = nextMd leap (ordToMd (monthLengths leap) 1 o) := by
  cases leap <;> decide +kernel

private theorem md_range (leap : Bool) : ∀ o, o < yearLen leap →
    let md := ordToMd (monthLengths leap) 1 o
    1 ≤ md.1 ∧ md.1 ≤ 12 ∧ 1 ≤ md.2 ∧ md.2 ≤ (monthLengths leap).getD (md.1 - 1) 0 ∧
    daysBefore leap md.1 + md.2 = o + 1 := by
  cases leap <;> decide +kernel

private theorem md_last (leap : Bool) : ordToMd (monthLengths leap) 1 (yearLen leap - 1) = (12, 31) := by
  cases leap <;> decide +kernel

private theorem md_inv (leap : Bool) : ∀ m, m < 13 → ∀ d, d < 32 →
    (1 ≤ m ∧ 1 ≤ d ∧ d ≤ (monthLengths leap).getD (m - 1) 0) →
    daysBefore leap m + d - 1 < yearLen leap ∧
    ordToMd (monthLengths leap) 1 (daysBefore leap m + d - 1) = (m, d) := by
  cases leap <;> decide +kernel

theorem daysIn_eq (y : Int) (m : Nat) (h1 : 1 ≤ m) (h2 : m ≤ 12) :
    daysIn y m = (monthLengths (isLeap y)).getD (m - 1) 0 := by
  have hl : (if isLeap y = true then 29 else 28) = (if LeapYear y then 29 else 28) := by
    by_cases h : LeapYear y
    · rw [if_pos h, if_pos ((isLeap_iff y).2 h)]
    · rw [if_neg h, if_neg (fun h' => h ((isLeap_iff y).1 h'))]
  match m with
  | 1 | 3 | 4 | 5 | 6 | 7 | 8 | 9 | 10 | 11 | 12 => rfl
  | 2 => simp only [daysIn]; rw [← hl]; rfl
  | 0 => omega
  | m + 13 => omega

theorem daysIn_le (y : Int) (m : Nat) : daysIn y m ≤ 31 := by
  unfold daysIn; repeat' split
  all_goals omega

theorem toDate_valid (d : NaiveDate) (h1 : 1 ≤ d.ordinal) (h2 : d.ordinal - 1 < yearLen (isLeap d.year)) :
    (toDate d).Valid ∧ 1 ≤ d.month ∧ d.month ≤ 12 ∧
    daysBefore (isLeap d.year) d.month + d.day = d.ordinal := by
  have := md_range (isLeap d.year) (d.ordinal - 1) h2
  simp only at this
  obtain ⟨a, b, c, e, f⟩ := this
  refine ⟨⟨c, ?_⟩, a, b, ?_⟩
  · show d.day ≤ daysIn d.year d.month
    rw [daysIn_eq d.year d.month a b]; exact e
  · show daysBefore (isLeap d.year) (ordToMd _ 1 (d.ordinal - 1)).1 + (ordToMd _ 1 (d.ordinal - 1)).2 = _
    omega

/-- Date of chrono's day `n` (relative to 1970-01-01). -/
def civil (n : Int) : NaiveDate := NaiveDate.from_num_days_from_ce (n + 719163)

theorem civil_zero : toDate (civil 0) = epoch := by decide +kernel

theorem civil_succ (n : Int) : toDate (civil (n + 1)) = (toDate (civil n)).next := by
  obtain ⟨a1, a2, a3⟩ := from_days_spec (n + 719163)
  obtain ⟨b1, b2, b3⟩ := from_days_spec (n + 1 + 719163)
  change yearStart (civil n).year + ((civil n).ordinal - 1 : Nat) = _ at a1
  change 1 ≤ (civil n).ordinal at a2
  change (civil n).ordinal - 1 < yearLen (isLeap (civil n).year) at a3
  change yearStart (civil (n+1)).year + ((civil (n+1)).ordinal - 1 : Nat) = _ at b1
  change 1 ≤ (civil (n+1)).ordinal at b2
  change (civil (n+1)).ordinal - 1 < yearLen (isLeap (civil (n+1)).year) at b3
  generalize civil n = d at *
  generalize civil (n + 1) = e at *
  obtain ⟨y, o⟩ := d
  obtain ⟨y', o'⟩ := e
  simp only at a1 a2 a3 b1 b2 b3
  obtain ⟨⟨v1, v2⟩, m1, m2, _⟩ := toDate_valid ⟨y, o⟩ a2 a3
  by_cases hlast : o < yearLen (isLeap y)
  · -- same year
    obtain ⟨hy, ho⟩ := year_unique (y := y') (y' := y) (o := o' - 1) (o' := o) (by omega) b3 hlast
    subst hy
    have ho' : o' - 1 = (o - 1) + 1 := by omega
    have hst := md_step (isLeap y') (o - 1) (by omega)
    have hd : daysIn y' (NaiveDate.month ⟨y', o⟩) =
        (monthLengths (isLeap y')).getD (NaiveDate.month ⟨y', o⟩ - 1) 0 := daysIn_eq _ _ m1 m2
    have hm : NaiveDate.month ⟨y', o⟩ = (ordToMd (monthLengths (isLeap y')) 1 (o - 1)).1 := rfl
    have hdd : NaiveDate.day ⟨y', o⟩ = (ordToMd (monthLengths (isLeap y')) 1 (o - 1)).2 := rfl
    have hm' : NaiveDate.month ⟨y', o'⟩ = (ordToMd (monthLengths (isLeap y')) 1 (o - 1 + 1)).1 := by
      rw [← ho']; rfl
    have hdd' : NaiveDate.day ⟨y', o'⟩ = (ordToMd (monthLengths (isLeap y')) 1 (o - 1 + 1)).2 := by
      rw [← ho']; rfl
    unfold toDate Date.next
    simp only
    rw [hd]
    by_cases hlt : NaiveDate.day ⟨y', o⟩ < (monthLengths (isLeap y')).getD (NaiveDate.month ⟨y', o⟩ - 1) 0
    · rw [if_pos hlt]
      have : nextMd (isLeap y') (ordToMd (monthLengths (isLeap y')) 1 (o - 1)) =
          (NaiveDate.month ⟨y', o⟩, NaiveDate.day ⟨y', o⟩ + 1) := by
        unfold nextMd; rw [← hm, ← hdd, if_pos hlt]
      rw [hm', hdd', hst, this]
    · rw [if_neg hlt]
      have hn : nextMd (isLeap y') (ordToMd (monthLengths (isLeap y')) 1 (o - 1)) =
          (NaiveDate.month ⟨y', o⟩ + 1, 1) := by
        unfold nextMd; rw [← hm, ← hdd, if_neg hlt]
      have hr := (md_range (isLeap y') (o - 1 + 1) (by omega)).2.1
      rw [hst, hn] at hr
      rw [if_pos (show NaiveDate.month ⟨y', o⟩ < 12 from Nat.lt_of_succ_le hr), hm', hdd', hst, hn]
  · -- last day of the year
    have hoe : o - 1 = yearLen (isLeap y) - 1 := by omega
    have hpos : 0 < yearLen (isLeap (y + 1)) := by unfold yearLen; split <;> omega
    obtain ⟨hy, ho⟩ := year_unique (y := y') (y' := y + 1) (o := o' - 1) (o' := 0)
      (by rw [yearStart_succ]; omega) b3 hpos
    subst hy
    have hm : NaiveDate.month ⟨y, o⟩ = 12 := by
      show (ordToMd _ 1 (o - 1)).1 = 12; rw [hoe, md_last]
    have hd : NaiveDate.day ⟨y, o⟩ = 31 := by
      show (ordToMd _ 1 (o - 1)).2 = 31; rw [hoe, md_last]
    have ho1 : o' = 1 := by omega
    subst ho1
    have hm' : NaiveDate.month ⟨y + 1, 1⟩ = 1 := by
      show (ordToMd (monthLengths (isLeap (y + 1))) 1 0).1 = 1
      cases isLeap (y + 1) <;> rfl
    have hd' : NaiveDate.day ⟨y + 1, 1⟩ = 1 := by
      show (ordToMd (monthLengths (isLeap (y + 1))) 1 0).2 = 1
      cases isLeap (y + 1) <;> rfl
    unfold toDate Date.next
    simp only [hm, hd, hm', hd']
    have : daysIn y 12 = 31 := rfl
    simp [this]

theorem civil_valid (n : Int) : (toDate (civil n)).Valid ∧ 1 ≤ (civil n).month ∧ (civil n).month ≤ 12 := by
  obtain ⟨_, h2, h3⟩ := from_days_spec (n + 719163)
  obtain ⟨a, b, c, _⟩ := toDate_valid _ h2 h3
  exact ⟨a, b, c⟩

theorem prev_next (d : Date) (hv : d.Valid) (h1 : 1 ≤ d.month) (h2 : d.month ≤ 12) : d.next.prev = d := by
  obtain ⟨y, m, dd⟩ := d
  obtain ⟨v1, v2⟩ := hv
  simp only at v1 v2 h1 h2
  unfold Date.next
  simp only
  split
  · unfold Date.prev; simp; omega
  · split
    · unfold Date.prev
      have : dd = daysIn y m := by omega
      simp [this]
      omega
    · have : m = 12 := by omega
      subst this
      have : daysIn y 12 = 31 := rfl
      unfold Date.prev; simp; omega

/-- The chrono calendar is the counted calendar. -/
theorem civil_eq (n : Int) : toDate (civil n) = civilDate n := by
  cases n with
  | ofNat n =>
    induction n with
    | zero => exact civil_zero
    | succ n ih =>
      show toDate (civil ((n : Int) + 1)) = _
      rw [civil_succ]
      show _ = (daysAfter n).next
      rw [show daysAfter n = toDate (civil (n : Int)) from ih.symm]
  | negSucc n =>
    have key : ∀ n : Nat, toDate (civil (-(n : Int))) = daysBeforeEpoch n := by
      intro n
      induction n with
      | zero => exact civil_zero
      | succ n ih =>
        have hs := civil_succ (-((n + 1 : Nat) : Int))
        rw [show -((n + 1 : Nat) : Int) + 1 = -(n : Int) by omega, ih] at hs
        obtain ⟨a, b, c⟩ := civil_valid (-((n + 1 : Nat) : Int))
        show _ = (daysBeforeEpoch n).prev
        rw [hs, prev_next _ a b c]
    exact key (n + 1)

theorem civilDate_succ (n : Int) : civilDate (n + 1) = (civilDate n).next := by
  rw [← civil_eq, ← civil_eq, civil_succ]

theorem civilDate_valid (n : Int) :
    (civilDate n).Valid ∧ 1 ≤ (civilDate n).month ∧ (civilDate n).month ≤ 12 := by
  rw [← civil_eq]; exact civil_valid n

/-- Distinct days have distinct dates. -/
theorem civilDate_inj {a b : Int} (h : civilDate a = civilDate b) : a = b := by
  rw [← civil_eq, ← civil_eq] at h
  have ha := from_days_spec (a + 719163)
  have hb := from_days_spec (b + 719163)
  have ha' := toDate_valid _ ha.2.1 ha.2.2
  have hb' := toDate_valid _ hb.2.1 hb.2.2
  change yearStart (civil a).year + ((civil a).ordinal - 1 : Nat) = _ ∧ _ at ha
  change yearStart (civil b).year + ((civil b).ordinal - 1 : Nat) = _ ∧ _ at hb
  change _ ∧ _ ∧ _ ∧ daysBefore (isLeap (civil a).year) (civil a).month + (civil a).day = (civil a).ordinal at ha'
  change _ ∧ _ ∧ _ ∧ daysBefore (isLeap (civil b).year) (civil b).month + (civil b).day = (civil b).ordinal at hb'
  simp only [toDate, Date.mk.injEq] at h
  obtain ⟨h1, h2, h3⟩ := h
  have h4 := ha'.2.2.2
  have h5 := hb'.2.2.2
  rw [h1, h2, h3] at h4
  rw [h1] at ha
  omega

/-- Months and days of a valid date. -/
theorem valid_bounds {y : Int} {m d : Nat} (h : Date.Valid ⟨y, m, d⟩) : 1 ≤ m ∧ m ≤ 12 ∧ 1 ≤ d ∧ d ≤ 31 := by
  obtain ⟨h1, h2⟩ := h
  simp only at h1 h2
  have hdl := daysIn_le y m
  refine ⟨?_, ?_, h1, by omega⟩
  · rcases Nat.eq_zero_or_pos m with rfl | h
    · simp [daysIn] at h2; omega
    · exact h
  · rcases Nat.lt_or_ge m 13 with h | h
    · omega
    · obtain ⟨k, rfl⟩ : ∃ k, m = k + 13 := ⟨m - 13, by omega⟩
      simp [daysIn] at h2; omega

/-- Every valid date is the date of a day. -/
theorem civil_of_valid {y : Int} {m d : Nat} (h : Date.Valid ⟨y, m, d⟩) :
    civil (NaiveDate.num_days_from_ce ⟨y, daysBefore (isLeap y) m + d⟩ - 719163) =
      ⟨y, daysBefore (isLeap y) m + d⟩ ∧
    civilDate (NaiveDate.num_days_from_ce ⟨y, daysBefore (isLeap y) m + d⟩ - 719163) = ⟨y, m, d⟩ := by
  obtain ⟨hm1, hm2, hd1, hd2⟩ := valid_bounds h
  obtain ⟨h1, h2⟩ := h
  simp only at h1 h2
  have hinv := md_inv (isLeap y) m (by omega) d (by omega)
    ⟨hm1, h1, by rw [← daysIn_eq y m hm1 hm2]; exact h2⟩
  have hs := from_days_spec (NaiveDate.num_days_from_ce ⟨y, daysBefore (isLeap y) m + d⟩)
  have hc : civil (NaiveDate.num_days_from_ce ⟨y, daysBefore (isLeap y) m + d⟩ - 719163) =
      ⟨y, daysBefore (isLeap y) m + d⟩ := by
    unfold civil
    rw [Int.sub_add_cancel]
    have hn := num_days_eq ⟨y, daysBefore (isLeap y) m + d⟩
    simp only at hn
    generalize hg : NaiveDate.from_num_days_from_ce
      (NaiveDate.num_days_from_ce ⟨y, daysBefore (isLeap y) m + d⟩) = e at *
    obtain ⟨y', o'⟩ := e
    simp only at hs
    obtain ⟨hy, ho⟩ := year_unique (y := y') (y' := y) (o := o' - 1) (o' := daysBefore (isLeap y) m + d - 1)
      (by omega) hs.2.2 hinv.1
    subst hy
    simp only [NaiveDate.mk.injEq, true_and]
    omega
  refine ⟨hc, ?_⟩
  rw [← civil_eq, hc]
  unfold toDate NaiveDate.month NaiveDate.day
  simp only
  rw [hinv.2]

/-- `from_ymd_opt` accepts exactly the calendar dates within its year range, and gives the date of the
right day. -/
theorem from_ymd_spec (y : Int) (m d : Nat) :
    (∀ n, civilDate n = ⟨y, m, d⟩ → -262143 ≤ y ∧ y ≤ 262142 →
      NaiveDate.from_ymd_opt y m d = some (civil n)) ∧
    (∀ nd, NaiveDate.from_ymd_opt y m d = some nd → ∃ n, civilDate n = ⟨y, m, d⟩ ∧ nd = civil n ∧
      -262143 ≤ y ∧ y ≤ 262142) := by
  have hm : ∀ m, 1 ≤ m → m ≤ 12 → (monthLengths (isLeap y))[m - 1]? = some (daysIn y m) := by
    intro m h1 h2
    rw [daysIn_eq y m h1 h2]
    have : m - 1 < (monthLengths (isLeap y)).length := by simp [monthLengths]; omega
    rw [List.getElem?_eq_getElem this]
    simp [List.getD, this]
  constructor
  · intro n hn hr
    have hv : Date.Valid ⟨y, m, d⟩ := by rw [← hn]; exact (civilDate_valid n).1
    obtain ⟨hm1, hm2, hd1, _⟩ := valid_bounds hv
    obtain ⟨hc1, hc2⟩ := civil_of_valid hv
    have : n = NaiveDate.num_days_from_ce ⟨y, daysBefore (isLeap y) m + d⟩ - 719163 :=
      civilDate_inj (by rw [hn, hc2])
    rw [this, hc1]
    unfold NaiveDate.from_ymd_opt
    rw [if_pos hr, hm m hm1 hm2]
    simp only
    rw [if_pos ⟨hm1, hd1, hv.2⟩]
  · intro nd hnd
    unfold NaiveDate.from_ymd_opt at hnd
    split at hnd
    · rename_i hr
      split at hnd
      · rename_i len hlen
        split at hnd
        · rename_i h
          obtain ⟨h1, h2, h3⟩ := h
          have hlt : m - 1 < (monthLengths (isLeap y)).length := by
            rcases Nat.lt_or_ge (m - 1) (monthLengths (isLeap y)).length with h | h
            · exact h
            · rw [List.getElem?_eq_none h] at hlen; cases hlen
          have hm2 : m ≤ 12 := by simp [monthLengths] at hlt; omega
          rw [hm m h1 hm2] at hlen
          have hv : Date.Valid ⟨y, m, d⟩ := ⟨h2, by simp only; rw [Option.some.inj hlen]; exact h3⟩
          obtain ⟨hc1, hc2⟩ := civil_of_valid hv
          exact ⟨_, hc2, by rw [hc1]; exact (Option.some.inj hnd).symm, hr⟩
        · cases hnd
      · cases hnd
    · cases hnd

/-- Year bounds of a day. -/
theorem year_bounds (n a b : Int) (ha : yearStart a ≤ n + 719528) (hb : n + 719528 < yearStart (b + 1)) :
    a ≤ (civilDate n).year ∧ (civilDate n).year ≤ b := by
  rw [← civil_eq]
  have h := from_days_spec (n + 719163)
  change yearStart (civil n).year + ((civil n).ordinal - 1 : Nat) = _ ∧ _ ∧
    (civil n).ordinal - 1 < yearLen (isLeap (civil n).year) at h
  have hs := yearStart_succ (civil n).year
  show a ≤ (civil n).year ∧ (civil n).year ≤ b
  constructor
  · rcases Int.lt_or_le (civil n).year a with h1 | h1
    · have h2 : yearStart ((civil n).year + 1) ≤ yearStart a := by
        rcases Int.lt_or_eq_of_le (show (civil n).year + 1 ≤ a by omega) with h3 | h3
        · have := yearStart_strict h3; omega
        · rw [h3]; omega
      omega
    · exact h1
  · rcases Int.lt_or_le b (civil n).year with h1 | h1
    · have h2 : yearStart (b + 1) ≤ yearStart (civil n).year := by
        rcases Int.lt_or_eq_of_le (show b + 1 ≤ (civil n).year by omega) with h3 | h3
        · have := yearStart_strict h3; omega
        · rw [h3]; omega
      omega
    · exact h1

end Verif
