import Verif.Props.DelayChain
import Verif.Props.Flanks
/-
C135: a watchdog, `rt(CLK := beat); ft(CLK := beat); ton(IN := NOT (rt.Q OR ft.Q), PT := T); alarm := ton.Q;`.
-/
namespace Verif
open Spec TimerParams

namespace Spec

/-- One scan of the program: the watched signal and the clock readings of the timer. -/
structure BeatScan where
  beat : Bool
  c1 : Nat
  c2 : Nat

/-- The clock never goes backwards. -/
def BeatClock (h : List BeatScan) : Prop := (h.flatMap fun c => [c.c1, c.c2]).Pairwise (· ≤ ·)

/-- The value of the signal in the last scan, FALSE before the first one. -/
def lastBeat (h : List BeatScan) : Bool := (h.getLast?.map (·.beat)).getD false

/-- The signal does not change for more than `T`: in the scan `first` and all later ones it has the value it had before, and from `first` to the last
scan more than `T` has gone by. -/
def Stuck (T : Int) (h : List BeatScan) : Prop :=
  ∃ pre first run last, h = pre ++ first :: run ++ [last] ∧ (∀ c ∈ first :: run ++ [last], c.beat = lastBeat pre) ∧
    (last.c2 : Int) - first.c1 > T

end Spec

/-- One scan of the program (`R_TRIG` and `F_TRIG`, src/flanks.rs:19-29, and `TON`, src/timers.rs:109-131). -/
def watchdog (T : Int) (s : Trigger × Trigger × TimerParams) (c : BeatScan) : Res (Trigger × Trigger × TimerParams) := do
  let rt ← R_TRIG.call s.1 c.beat
  let ft ← F_TRIG.call s.2.1 c.beat
  let ton ← TON.call s.2.2 ⟨!(rt.output || ft.output), T, c.c1, c.c2⟩
  pure (rt, ft, ton)

/-- `alarm` after the scans `h`, or how the program ended. -/
def alarm (T : Int) (h : List BeatScan) : Res Bool :=
  outputs (watchdog T) (Trigger.default, Trigger.default, TimerParams.default) (·.2.2.output) h

/-- The start time of the timer. -/
private def quietSince (h : List BeatScan) : Bool × Option Nat :=
  h.foldl (fun p c => (c.beat, tonNext p.2 (c.beat == p.1) c.c1)) (false, none)

private theorem lastBeat_snoc (h : List BeatScan) (c : BeatScan) : lastBeat (h ++ [c]) = c.beat := by simp [lastBeat]

private theorem quietSince_fst (h : List BeatScan) : (quietSince h).1 = lastBeat h := by
  refine snoc_induction ?_ ?_ h
  · rfl
  · intro h c _; simp [quietSince, List.foldl_append, lastBeat_snoc]

private theorem quietSince_snoc (h : List BeatScan) (c : BeatScan) :
    (quietSince (h ++ [c])).2 = tonNext (quietSince h).2 (c.beat == lastBeat h) c.c1 := by
  rw [← quietSince_fst]; simp [quietSince, List.foldl_append]

private theorem watchdog_is {T : Int} (hT : 0 ≤ T ∧ T < 2 ^ 63) (h : List BeatScan) :
    ∃ s, runFB (watchdog T) (Trigger.default, Trigger.default, TimerParams.default) h = .ok s ∧
      s.1.internal.current_value = lastBeat h ∧ s.2.1.internal.current_value = lastBeat h ∧ TonIs s.2.2 (quietSince h).2 := by
  refine snoc_induction ?_ ?_ h
  · exact ⟨_, rfl, rfl, rfl, rfl, fun _ => rfl⟩
  · intro h c ih
    obtain ⟨s, e, i1, i2, i3⟩ := ih
    have hq : (!((c.beat && (lastBeat h ^^ c.beat)) || (!c.beat && (lastBeat h ^^ c.beat)))) = (c.beat == lastBeat h) := by
      cases c.beat <;> cases lastBeat h <;> rfl
    obtain ⟨s3, e3, j3, _⟩ := ton_is hT i3 (c.beat == lastBeat h) c.c1 c.c2
    rw [runFB_snoc_ok e]
    simp only [watchdog, R_TRIG.call, F_TRIG.call, R_TRIG, F_TRIG, Signal.rising_edge, Signal.falling_edge, Res.bind_ok, i1, i2, hq, e3]
    refine ⟨_, rfl, ?_, ?_, ?_⟩
    · rw [lastBeat_snoc]
    · rw [lastBeat_snoc]
    · rw [quietSince_snoc]; exact j3

private theorem alarm_snoc {T : Int} (hT : 0 ≤ T ∧ T < 2 ^ 63) (h : List BeatScan) (c : BeatScan) :
    alarm T (h ++ [c]) = .ok (tonQ T (quietSince h).2 (c.beat == lastBeat h) c.c2) := by
  obtain ⟨s, e, i1, i2, i3⟩ := watchdog_is hT h
  have hq : (!((c.beat && (lastBeat h ^^ c.beat)) || (!c.beat && (lastBeat h ^^ c.beat)))) = (c.beat == lastBeat h) := by
    cases c.beat <;> cases lastBeat h <;> rfl
  obtain ⟨s3, e3, _, q⟩ := ton_is hT i3 (c.beat == lastBeat h) c.c1 c.c2
  unfold alarm outputs
  rw [runFB_snoc_ok e]
  simp only [watchdog, R_TRIG.call, F_TRIG.call, R_TRIG, F_TRIG, Signal.rising_edge, Signal.falling_edge, Res.bind_ok, i1, i2, hq, e3, ← q]
  rfl

private theorem quietSince_some (h : List BeatScan) (t : Nat) (ht : (quietSince h).2 = some t) :
    ∃ pre first run, h = pre ++ first :: run ∧ (∀ c ∈ first :: run, c.beat = lastBeat pre) ∧ t = first.c1 := by
  revert t
  refine snoc_induction ?_ ?_ h
  · intro t ht; simp [quietSince] at ht
  · intro h c ih t ht
    rw [quietSince_snoc] at ht
    by_cases hc : c.beat = lastBeat h
    · rw [hc] at ht
      cases hs : (quietSince h).2 with
      | none =>
        simp [tonNext, hs] at ht
        exact ⟨h, c, [], rfl, by simpa using hc, ht.symm⟩
      | some t0 =>
        simp [tonNext, hs] at ht
        obtain ⟨pre, first, run, e, hr, h0⟩ := ih t0 hs
        refine ⟨pre, first, run ++ [c], by simp [e], ?_, by omega⟩
        have hl : lastBeat h = lastBeat pre := by
          rw [e]
          rcases List.eq_nil_or_concat run with rfl | ⟨r, x, rfl⟩
          · rw [lastBeat_snoc]; exact hr first (by simp)
          · rw [List.concat_eq_append, ← List.cons_append, ← List.append_assoc, lastBeat_snoc]; exact hr x (by simp)
        intro d hd
        rw [← List.cons_append] at hd
        rcases List.mem_append.1 hd with hd | hd
        · exact hr d hd
        · rw [List.mem_singleton.1 hd, hc, hl]
    · have : (c.beat == lastBeat h) = false := by simpa using hc
      simp [tonNext, this] at ht

private theorem lastBeat_run (pre : List BeatScan) (first : BeatScan) (run : List BeatScan) (hr : ∀ c ∈ first :: run, c.beat = lastBeat pre) :
    lastBeat (pre ++ first :: run) = lastBeat pre := by
  rcases List.eq_nil_or_concat run with rfl | ⟨r, x, rfl⟩
  · rw [lastBeat_snoc]; exact hr first (by simp)
  · rw [List.concat_eq_append, ← List.cons_append, ← List.append_assoc, lastBeat_snoc]; exact hr x (by simp)

private theorem quietSince_run (pre : List BeatScan) (first : BeatScan) (run : List BeatScan)
    (hr : ∀ c ∈ first :: run, c.beat = lastBeat pre) :
    ∃ t, (quietSince (pre ++ first :: run)).2 = some t ∧ (t = first.c1 ∨ (quietSince pre).2 = some t) := by
  revert hr
  refine snoc_induction ?_ ?_ run
  · intro hr
    have hf := hr first (by simp)
    rw [quietSince_snoc, hf]
    cases hs : (quietSince pre).2 with
    | none => exact ⟨first.c1, by simp [tonNext], .inl rfl⟩
    | some t => exact ⟨t, by simp [tonNext], .inr rfl⟩
  · intro run c ih hr
    have hr' : ∀ d ∈ first :: run, d.beat = lastBeat pre := fun d hd => hr d (by
      rw [← List.cons_append]; exact List.mem_append_left _ hd)
    obtain ⟨t, h1, h2⟩ := ih hr'
    refine ⟨t, ?_, h2⟩
    rw [← List.cons_append, ← List.append_assoc, quietSince_snoc, h1, hr c (by simp), lastBeat_run pre first run hr']
    simp [tonNext]

private theorem clock_le {a b : List BeatScan} {x y : BeatScan} (h : BeatClock (a ++ y :: b)) (hx : x ∈ a) : x.c1 ≤ y.c1 := by
  unfold BeatClock at h
  rw [List.flatMap_append, List.pairwise_append] at h
  exact h.2.2 x.c1 (List.mem_flatMap.2 ⟨x, hx, by simp⟩) y.c1 (by simp)

/-- **C135.** The watchdog never aborts the program, and the alarm is on exactly when the signal has not changed for more than `T`. -/
theorem C135_watchdog (T : Int) (hT : 0 ≤ T ∧ T < 2 ^ 63) (h : List BeatScan) (hc : BeatClock h) :
    ∃ q, alarm T h = .ok q ∧ (q = true ↔ Stuck T h) := by
  rcases List.eq_nil_or_concat h with rfl | ⟨h, c, rfl⟩
  · refine ⟨false, rfl, by simp, ?_⟩
    rintro ⟨pre, first, run, last, e, _⟩
    simp at e
  · rw [List.concat_eq_append] at hc ⊢
    rw [alarm_snoc hT]
    refine ⟨_, rfl, ?_, ?_⟩
    · intro hq
      cases hs : (quietSince h).2 with
      | none => simp [tonQ, hs] at hq
      | some t =>
        obtain ⟨pre, first, run, e, hr, ht⟩ := quietSince_some h t hs
        simp [tonQ, hs] at hq
        have hl := lastBeat_run pre first run hr
        rw [← e] at hl
        refine ⟨pre, first, run, c, by rw [e], ?_, by omega⟩
        intro d hd
        rcases List.mem_append.1 hd with hd | hd
        · exact hr d hd
        · rw [List.mem_singleton.1 hd, hq.1, hl]
    · rintro ⟨pre, first, run, last, e, hr, hl⟩
      obtain ⟨rfl, rfl⟩ : h = pre ++ first :: run ∧ c = last := by
        have := List.append_inj' e (by simp)
        simpa using this
      have hr' : ∀ d ∈ first :: run, d.beat = lastBeat pre := fun d hd => hr d (List.mem_append_left _ hd)
      obtain ⟨t, h1, h2⟩ := quietSince_run pre first run hr'
      have ht : t ≤ first.c1 := by
        rcases h2 with rfl | h2
        · exact Nat.le_refl _
        · obtain ⟨pre', first', run', e', _, rfl⟩ := quietSince_some pre t h2
          exact clock_le (a := pre) (b := run ++ [c]) (by simpa using hc) (by rw [e']; simp)
      rw [h1, lastBeat_run pre first run hr', hr c (by simp)]
      simp [tonQ]
      omega

/-- **C135.** In the scan in which the signal changes, the alarm is off. -/
theorem C135_change (T : Int) (hT : 0 ≤ T ∧ T < 2 ^ 63) (h : List BeatScan) (c : BeatScan) (hne : c.beat ≠ lastBeat h) :
    alarm T (h ++ [c]) = .ok false := by
  rw [alarm_snoc hT, show (c.beat == lastBeat h) = false by simpa using hne]
  cases (quietSince h).2 <;> simp [tonQ]

/-! ### Examples -/

/-- A signal that changes, then stops: the alarm comes when more than 20 ns have gone by since the first scan without a change. -/
example : alarm 20 [⟨true, 0, 1⟩, ⟨false, 10, 11⟩, ⟨false, 20, 21⟩, ⟨false, 30, 31⟩, ⟨false, 40, 41⟩] = .ok true ∧
    alarm 20 [⟨true, 0, 1⟩, ⟨false, 10, 11⟩, ⟨false, 20, 21⟩, ⟨false, 30, 31⟩] = .ok false ∧
    alarm 20 [⟨true, 0, 1⟩, ⟨false, 10, 11⟩, ⟨false, 20, 21⟩, ⟨true, 30, 31⟩, ⟨true, 40, 41⟩] = .ok false := by decide +kernel
/-- The first of these histories meets the hypothesis, and its signal is stuck. -/
example : BeatClock [⟨true, 0, 1⟩, ⟨false, 10, 11⟩, ⟨false, 20, 21⟩, ⟨false, 30, 31⟩, ⟨false, 40, 41⟩] ∧
    Stuck 20 [⟨true, 0, 1⟩, ⟨false, 10, 11⟩, ⟨false, 20, 21⟩, ⟨false, 30, 31⟩, ⟨false, 40, 41⟩] :=
  ⟨by unfold BeatClock; decide, [⟨true, 0, 1⟩, ⟨false, 10, 11⟩], ⟨false, 20, 21⟩, [⟨false, 30, 31⟩], ⟨false, 40, 41⟩, rfl, by decide, by decide⟩

end Verif
