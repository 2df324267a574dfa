import Verif.Props.DelayChain
import Verif.Props.Reversing
/-
C141: an on-delay followed by an off-delay, `ton(IN := x, PT := T1); tof(IN := ton.Q, PT := T2);`.
-/
namespace Verif
open Spec TimerParams

namespace Spec

/-- In the last scan of `h` the input has been TRUE for more than `T`: it is TRUE from some earlier scan `first` on, and from `first` to the last scan more
than `T` has gone by. -/
def OnFor (T : Int) (h : List ChainIn) : Prop :=
  ∃ pre first run last, h = pre ++ first :: run ++ [last] ∧ (∀ c ∈ first :: run ++ [last], c.input = true) ∧ (last.a2 : Int) - first.a1 > T

end Spec

/-- One scan of the program (`TON`, src/timers.rs:109-131, and `TOF`, 135-152). -/
def signalFilter (T1 T2 : Int) (s : TimerParams × TimerParams) (c : ChainIn) : Res (TimerParams × TimerParams) := do
  let s1 ← TON.call s.1 ⟨c.input, T1, c.a1, c.a2⟩
  let s2 ← TOF.call s.2 ⟨s1.output, T2, c.b1, c.b2⟩
  pure (s1, s2)

/-- `tof.Q` after the scans `h`, or how the program ended. -/
def filtered (T1 T2 : Int) (h : List ChainIn) : Res Bool :=
  outputs (signalFilter T1 T2) (TimerParams.default, TimerParams.default) (·.2.output) h

/-! ### The states of the two timers -/

private def next (T1 : Int) (p : Option Nat × Bool × Option Nat) (c : ChainIn) : Option Nat × Bool × Option Nat :=
  (tonNext p.1 c.input c.a1, tofNext p.2 (tonQ T1 p.1 c.input c.a2) c.b1)

private def st (T1 : Int) (h : List ChainIn) : Option Nat × Bool × Option Nat := h.foldl (next T1) (none, false, none)

private theorem st_snoc (T1 : Int) (h : List ChainIn) (c : ChainIn) : st T1 (h ++ [c]) = next T1 (st T1 h) c := by
  simp [st, List.foldl_append]

private theorem filter_is {T1 T2 : Int} (h1 : 0 ≤ T1 ∧ T1 < 2 ^ 63) (h2 : 0 ≤ T2 ∧ T2 < 2 ^ 63) (h : List ChainIn) :
    ∃ s, runFB (signalFilter T1 T2) (TimerParams.default, TimerParams.default) h = .ok s ∧ TonIs s.1 (st T1 h).1 ∧ TofIs s.2 (st T1 h).2 := by
  refine snoc_induction ?_ ?_ h
  · exact ⟨_, rfl, ⟨rfl, fun _ => rfl⟩, rfl, rfl⟩
  · intro h c ih
    obtain ⟨s, i1, i2, i3⟩ := ih
    obtain ⟨a, a1, a2, a3⟩ := ton_is h1 i2 c.input c.a1 c.a2
    obtain ⟨b, b1, b2, _⟩ := tof_is h2 i3 a.output c.b1 c.b2
    rw [runFB_snoc_ok i1, st_snoc]
    refine ⟨(a, b), by simp [signalFilter, a1, b1], a2, ?_⟩
    rw [a3] at b2; exact b2

private theorem filtered_snoc {T1 T2 : Int} (h1 : 0 ≤ T1 ∧ T1 < 2 ^ 63) (h2 : 0 ≤ T2 ∧ T2 < 2 ^ 63) (h : List ChainIn) (c : ChainIn) :
    filtered T1 T2 (h ++ [c]) = .ok (tofQ T2 (st T1 h).2 (tonQ T1 (st T1 h).1 c.input c.a2) c.b2) := by
  obtain ⟨s, i1, i2, i3⟩ := filter_is h1 h2 h
  obtain ⟨a, a1, a2, a3⟩ := ton_is h1 i2 c.input c.a1 c.a2
  obtain ⟨b, b1, b2, b3⟩ := tof_is h2 i3 a.output c.b1 c.b2
  unfold filtered outputs
  rw [runFB_snoc_ok i1]
  unfold signalFilter
  rw [a1, Res.bind_ok, b1, Res.bind_ok, ← a3, ← b3]
  rfl

private theorem ton_inv (T1 : Int) (h : List ChainIn) : ChainClock h →
    (∀ t, (st T1 h).1 = some t → ∃ pre first run, h = pre ++ first :: run ∧ (∀ c ∈ first :: run, c.input = true) ∧ t = first.a1) ∧
    (∀ pre first run, h = pre ++ first :: run → (∀ c ∈ first :: run, c.input = true) → ∃ t, (st T1 h).1 = some t ∧ t ≤ first.a1) := by
  refine snoc_induction ?_ ?_ h
  · intro _
    exact ⟨fun t h => by simp [st] at h, fun pre first run h => by simp at h⟩
  · intro h c ih hc
    obtain ⟨hc', -, -, -, hd⟩ := chainClock_snoc hc
    obtain ⟨i1, i2⟩ := ih hc'
    rw [st_snoc]
    simp only [next, tonNext]
    constructor
    · intro t ht
      split at ht
      · rename_i hci
        cases hp : (st T1 h).1 with
        | none => rw [hp] at ht; exact ⟨h, c, [], rfl, by simp [hci], by simpa using ht.symm⟩
        | some u =>
          rw [hp] at ht
          obtain ⟨pre, first, run, e, ho, hu⟩ := i1 u hp
          refine ⟨pre, first, run ++ [c], by simp [e], ?_, by simp at ht; omega⟩
          intro d hdm
          rw [← List.cons_append, List.mem_append] at hdm
          rcases hdm with hdm | hdm
          · exact ho d hdm
          · simp at hdm; rw [hdm]; exact hci
      · simp at ht
    · intro pre first run e ho
      rcases List.eq_nil_or_concat run with rfl | ⟨run', d, rfl⟩
      · obtain ⟨rfl, e2⟩ := List.append_inj' e rfl
        obtain rfl : c = first := by simpa using e2
        rw [if_pos (ho c (by simp))]
        cases hp : (st T1 h).1 with
        | none => exact ⟨_, rfl, Nat.le_refl _⟩
        | some u =>
          refine ⟨_, rfl, ?_⟩
          obtain ⟨pre, first, run, e, _, hu⟩ := i1 u hp
          have := hd first (by rw [e]; simp)
          simp only [Option.getD_some]; omega
      · rw [List.concat_eq_append, ← List.cons_append, ← List.append_assoc] at e
        obtain ⟨e1, e2⟩ := List.append_inj' e rfl
        obtain rfl : c = d := by simpa using e2
        obtain ⟨t, ht, hle⟩ := i2 pre first run' e1 (fun x hx => ho x (by
          rcases List.mem_cons.1 hx with hx | hx <;> simp [hx]))
        rw [if_pos (ho c (by simp)), ht]
        exact ⟨t, rfl, hle⟩

/-- `ton.Q` after `h ++ [c]` says whether the input has been TRUE for more than `T1`. -/
private theorem tonQ_iff {T1 : Int} (h : List ChainIn) (c : ChainIn) (hc : ChainClock (h ++ [c])) :
    tonQ T1 (st T1 h).1 c.input c.a2 = true ↔ OnFor T1 (h ++ [c]) := by
  obtain ⟨hc', k1, k2, k3, hd⟩ := chainClock_snoc hc
  obtain ⟨i1, i2⟩ := ton_inv T1 h hc'
  constructor
  · intro hq
    unfold tonQ at hq
    cases hp : (st T1 h).1 with
    | none => rw [hp] at hq; simp at hq
    | some t =>
      rw [hp] at hq
      simp only [Bool.and_eq_true, decide_eq_true_eq] at hq
      obtain ⟨pre, first, run, e, ho, ht⟩ := i1 t hp
      have := hd first (by rw [e]; simp)
      refine ⟨pre, first, run, c, by rw [e], ?_, by omega⟩
      intro d hdm
      rcases List.mem_append.1 hdm with hdm | hdm
      · exact ho d hdm
      · simp at hdm; rw [hdm]; exact hq.1
  · rintro ⟨pre, first, run, last, e, ho, hT⟩
    obtain ⟨e1, e2⟩ := List.append_inj' e rfl
    obtain rfl : c = last := by simpa using e2
    obtain ⟨t, ht, hle⟩ := i2 pre first run e1 (fun x hx => ho x (List.mem_append_left _ hx))
    have hf := hd first (by rw [e1]; simp)
    simp only [tonQ, ht, Bool.and_eq_true, decide_eq_true_eq]
    exact ⟨ho c (by simp), by omega⟩

private theorem tof_inv (T1 : Int) (h : List ChainIn) : ChainClock h →
    ((st T1 h).2.1 = true ↔ OnFor T1 h) ∧
    ((st T1 h).2.1 = false → ∀ u, (st T1 h).2.2 = some u → ∃ p z mid, h = p ++ z :: mid ∧ OnFor T1 p ∧ u = z.b1) ∧
    ((st T1 h).2.1 = false → ∀ p z mid, h = p ++ z :: mid → OnFor T1 p → ∃ u, (st T1 h).2.2 = some u ∧ z.b1 ≤ u) := by
  refine snoc_induction ?_ ?_ h
  · intro _
    refine ⟨?_, fun _ u h => by simp [st] at h, fun _ p z mid h => by simp at h⟩
    constructor
    · intro h; simp [st] at h
    · rintro ⟨pre, first, run, last, e, _⟩
      simp at e
  · intro h c ih hc
    obtain ⟨hc', k1, k2, k3, hd⟩ := chainClock_snoc hc
    obtain ⟨i1, i2, i3⟩ := ih hc'
    have hq := tonQ_iff (T1 := T1) h c hc
    rw [st_snoc]
    simp only [next, tofNext]
    refine ⟨hq, ?_, ?_⟩
    · intro hn u hu
      rw [hn] at hu
      cases he : (st T1 h).2.1 with
      | true =>
        simp only [he, if_true, Bool.false_eq_true, if_false, Option.some.injEq] at hu
        exact ⟨h, c, [], rfl, i1.1 he, hu.symm⟩
      | false =>
        simp only [he, Bool.false_eq_true, if_false] at hu
        obtain ⟨p, z, mid, e, hon, hz⟩ := i2 he u hu
        exact ⟨p, z, mid ++ [c], by simp [e], hon, hz⟩
    · intro hn p z mid e hon
      rw [hn]
      cases he : (st T1 h).2.1 with
      | true =>
        refine ⟨c.b1, by simp, ?_⟩
        have hz : z ∈ h ++ [c] := by rw [e]; simp
        rcases List.mem_append.1 hz with hz | hz
        · have := hd z hz; omega
        · simp at hz; rw [hz]; exact Nat.le_refl _
      | false =>
        simp only [Bool.false_eq_true, if_false]
        rcases List.eq_nil_or_concat mid with rfl | ⟨mid', d, rfl⟩
        · obtain ⟨rfl, -⟩ := List.append_inj' e rfl
          rw [i1.2 hon] at he; cases he
        · rw [List.concat_eq_append, ← List.cons_append, ← List.append_assoc] at e
          exact i3 he p z mid' (List.append_inj' e rfl).1 hon

/-! ### C141 -/

/-- **C141.** The filter delays both edges and its output is exactly this: it is TRUE in a scan if the input was TRUE for more than `T1` in that scan or
the one before, or in some earlier scan such that, from the scan after that to this one, no more than `T2` has gone by. -/
theorem C141_filter (T1 T2 : Int) (h1 : 0 ≤ T1 ∧ T1 < 2 ^ 63) (h2 : 0 ≤ T2 ∧ T2 < 2 ^ 63) (h : List ChainIn) (hc : ChainClock h) :
    ∃ Q, filtered T1 T2 h = .ok Q ∧
      (Q = true ↔ ∃ p q, h = p ++ q ∧ OnFor T1 p ∧
        (q.length ≤ 1 ∨ ∃ next mid last, q = next :: mid ++ [last] ∧ (last.b2 : Int) - next.b1 ≤ T2)) := by
  rcases List.eq_nil_or_concat h with rfl | ⟨h, c, rfl⟩
  · refine ⟨false, rfl, ⟨fun h => (Bool.noConfusion h), ?_⟩⟩
    rintro ⟨p, q, e, ⟨pre, first, run, last, e', _⟩, _⟩
    simp [e'] at e
  · rw [List.concat_eq_append] at hc ⊢
    obtain ⟨hc', k1, k2, k3, hd⟩ := chainClock_snoc hc
    obtain ⟨i1, i2, i3⟩ := tof_inv T1 h hc'
    have hq := tonQ_iff (T1 := T1) h c hc
    refine ⟨_, filtered_snoc h1 h2 h c, ?_⟩
    constructor
    · intro ht
      by_cases hin : OnFor T1 (h ++ [c])
      · exact ⟨_, [], by simp, hin, .inl (by simp)⟩
      cases he : (st T1 h).2.1 with
      | true => exact ⟨h, [c], rfl, i1.1 he, .inl (by simp)⟩
      | false =>
        have : tonQ T1 (st T1 h).1 c.input c.a2 = false := by
          rw [← Bool.not_eq_true, hq]; exact hin
        rw [this] at ht
        simp only [tofQ, he, Bool.false_or] at ht
        cases hu : (st T1 h).2.2 with
        | none => rw [hu] at ht; simp at ht
        | some u =>
          rw [hu] at ht
          simp only [decide_eq_true_eq] at ht
          obtain ⟨p, z, mid, e, hon, hz⟩ := i2 he u hu
          have := hd z (by rw [e]; simp)
          exact ⟨p, z :: mid ++ [c], by rw [e]; simp, hon, .inr ⟨z, mid, c, rfl, by omega⟩⟩
    · rintro ⟨p, q, e, hon, hor⟩
      by_cases hin : OnFor T1 (h ++ [c])
      · simp [tofQ, hq.2 hin]
      cases he : (st T1 h).2.1 with
      | true => simp [tofQ, he]
      | false =>
        have hnon : ¬ OnFor T1 h := by rw [← i1, he]; simp
        rcases hor with hl | ⟨z, mid, last, rfl, hle⟩
        · match q, hl with
          | [], _ => rw [List.append_nil] at e; rw [← e] at hon; exact absurd hon hin
          | [d], _ => rw [← (List.append_inj' e rfl).1] at hon; exact absurd hon hnon
        · rw [← List.append_assoc] at e
          obtain ⟨e1, e2⟩ := List.append_inj' e rfl
          obtain rfl : c = last := by simpa using e2
          obtain ⟨u, hu, hle'⟩ := i3 he p z mid e1 hon
          simp only [tofQ, hu, Bool.or_eq_true, decide_eq_true_eq]
          right; omega

/-- **C141.** Pulses no longer than `T1` have no effect: while no stretch of TRUE inputs lasts more than `T1`, the output stays FALSE. -/
theorem C141_short_pulses (T1 T2 : Int) (h1 : 0 ≤ T1 ∧ T1 < 2 ^ 63) (h2 : 0 ≤ T2 ∧ T2 < 2 ^ 63) (h : List ChainIn) (hc : ChainClock h)
    (hs : ∀ pre first run last post, h = pre ++ first :: run ++ last :: post → (∀ c ∈ first :: run ++ [last], c.input = true) →
      (last.a2 : Int) - first.a1 ≤ T1) :
    filtered T1 T2 h = .ok false := by
  obtain ⟨Q, e, hq⟩ := C141_filter T1 T2 h1 h2 h hc
  rw [e]
  cases Q with
  | false => rfl
  | true =>
    obtain ⟨p, q, rfl, ⟨pre, first, run, last, rfl, ho, hT⟩, _⟩ := hq.1 rfl
    have := hs pre first run last q (by simp) ho
    omega

/-- **C141.** Gaps no longer than `T2` are bridged: if the input was TRUE for more than `T1` at the end of `p`, then whatever
the input does in the scans after `p`, the output is TRUE for as long as no more than `T2` has gone by since the first of them. -/
theorem C141_gaps_bridged (T1 T2 : Int) (h1 : 0 ≤ T1 ∧ T1 < 2 ^ 63) (h2 : 0 ≤ T2 ∧ T2 < 2 ^ 63) (p mid : List ChainIn) (first last : ChainIn)
    (hc : ChainClock (p ++ first :: mid ++ [last])) (hp : OnFor T1 p) (hT : (last.b2 : Int) - first.b1 ≤ T2) :
    filtered T1 T2 (p ++ first :: mid ++ [last]) = .ok true := by
  obtain ⟨Q, e, hq⟩ := C141_filter T1 T2 h1 h2 _ hc
  rw [e, hq.2 ⟨p, first :: mid ++ [last], by simp, hp, .inr ⟨first, mid, last, rfl, hT⟩⟩]

/-- A pulse of 10 is suppressed, one of 30 is passed on, and a gap of 20 after it is bridged (`T1 = 20`, `T2 = 50`). -/
example : filtered 20 50 [⟨true, 0, 0, 0, 0⟩, ⟨true, 10, 10, 10, 10⟩, ⟨false, 20, 20, 20, 20⟩] = .ok false ∧
    filtered 20 50 [⟨true, 0, 0, 0, 0⟩, ⟨true, 30, 30, 30, 30⟩, ⟨false, 40, 40, 40, 40⟩, ⟨false, 60, 60, 60, 60⟩] = .ok true ∧
    filtered 20 50 [⟨true, 0, 0, 0, 0⟩, ⟨true, 30, 30, 30, 30⟩, ⟨false, 40, 40, 40, 40⟩, ⟨false, 91, 91, 91, 91⟩] = .ok false := by decide
example : OnFor 20 [⟨true, 0, 0, 0, 0⟩, ⟨true, 30, 30, 30, 30⟩] := ⟨[], ⟨true, 0, 0, 0, 0⟩, [], ⟨true, 30, 30, 30, 30⟩, rfl, by decide, by decide⟩
example : ChainClock [⟨true, 0, 0, 0, 0⟩, ⟨true, 30, 30, 30, 30⟩, ⟨false, 40, 40, 40, 40⟩, ⟨false, 60, 60, 60, 60⟩] := by
  unfold ChainClock; decide

end Verif
