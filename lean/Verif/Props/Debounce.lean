import Verif.Props.DelayChain
import Verif.Props.Flanks
/-
C123: a debounced input, `t1(IN := x, PT := T); t2(IN := NOT x, PT := T); rs(SET := t1.Q, RESET1 := t2.Q);`, output `rs.Q1`.
-/
namespace Verif
open Spec TimerParams

/-- One scan of the program (two calls of `TON`, src/timers.rs:109-131, and one of `RS`, src/bistable_functionblocks.rs:35-37).
Readings `a1, a2` of the clock are those of the first timer, `b1, b2` those of the second. -/
def debounce (T : Int) (s : TimerParams × TimerParams × SetResetParams) (c : ChainIn) :
    Res (TimerParams × TimerParams × SetResetParams) := do
  let s1 ← TON.call s.1 ⟨c.input, T, c.a1, c.a2⟩
  let s2 ← TON.call s.2.1 ⟨!c.input, T, c.b1, c.b2⟩
  let s3 ← RS.call s.2.2 ⟨s1.output, s2.output⟩
  pure (s1, s2, s3)

/-- `rs.Q1` after the scans `h`, or how the program ended. -/
def debounced (T : Int) (h : List ChainIn) : Res Bool :=
  outputs (debounce T) (TimerParams.default, TimerParams.default, SetResetParams.default) (·.2.2.output) h

private def startOf (inp : ChainIn → Bool) (clk : ChainIn → Nat) (h : List ChainIn) : Option Nat :=
  h.foldl (fun st c => tonNext st (inp c) (clk c)) none

private theorem startOf_snoc (inp : ChainIn → Bool) (clk : ChainIn → Nat) (h : List ChainIn) (c : ChainIn) :
    startOf inp clk (h ++ [c]) = tonNext (startOf inp clk h) (inp c) (clk c) := by
  simp [startOf, List.foldl_append]

private theorem startOf_some (inp : ChainIn → Bool) (clk : ChainIn → Nat) (h : List ChainIn) (t : Nat)
    (ht : startOf inp clk h = some t) :
    ∃ pre first run, h = pre ++ first :: run ∧ (∀ c ∈ first :: run, inp c = true) ∧ t = clk first := by
  revert t
  refine snoc_induction ?_ ?_ h
  · intro t ht; simp [startOf] at ht
  · intro h c ih t ht
    rw [startOf_snoc] at ht
    cases hc : inp c
    · simp [tonNext, hc] at ht
    · cases hs : startOf inp clk h with
      | none =>
        simp [tonNext, hc, hs] at ht
        exact ⟨h, c, [], rfl, by simpa using hc, ht.symm⟩
      | some t0 =>
        simp [tonNext, hc, hs] at ht
        obtain ⟨pre, first, run, e, hr, h0⟩ := ih t0 hs
        refine ⟨pre, first, run ++ [c], by simp [e], ?_, by omega⟩
        intro d hd
        rw [← List.cons_append] at hd
        rcases List.mem_append.1 hd with hd | hd
        · exact hr d hd
        · rw [List.mem_singleton.1 hd, hc]

private theorem startOf_run (inp : ChainIn → Bool) (clk : ChainIn → Nat) (pre : List ChainIn) (first : ChainIn) (run : List ChainIn)
    (hr : ∀ c ∈ first :: run, inp c = true) :
    ∃ t, startOf inp clk (pre ++ first :: run) = some t ∧ (t = clk first ∨ startOf inp clk pre = some t) := by
  revert hr
  refine snoc_induction ?_ ?_ run
  · intro hr
    have hf := hr first (by simp)
    rw [startOf_snoc]
    cases hs : startOf inp clk pre with
    | none => exact ⟨clk first, by simp [tonNext, hf], .inl rfl⟩
    | some t => exact ⟨t, by simp [tonNext, hf], .inr rfl⟩
  · intro run c ih hr
    obtain ⟨t, h1, h2⟩ := ih fun d hd => hr d (by
      rw [← List.cons_append]; exact List.mem_append_left _ hd)
    refine ⟨t, ?_, h2⟩
    rw [← List.cons_append, ← List.append_assoc, startOf_snoc, h1]
    simp [tonNext, hr c (by simp)]

/-- The two start times. -/
private def up (h : List ChainIn) := startOf (·.input) (·.a1) h
private def down (h : List ChainIn) := startOf (!·.input) (·.b1) h

private theorem debounce_is {T : Int} (hT : 0 ≤ T ∧ T < 2 ^ 63) (h : List ChainIn) :
    ∃ s, runFB (debounce T) (TimerParams.default, TimerParams.default, SetResetParams.default) h = .ok s ∧
      TonIs s.1 (up h) ∧ TonIs s.2.1 (down h) := by
  refine snoc_induction ?_ ?_ h
  · exact ⟨_, rfl, ⟨rfl, fun _ => rfl⟩, ⟨rfl, fun _ => rfl⟩⟩
  · intro h c ih
    obtain ⟨s, e, i1, i2⟩ := ih
    obtain ⟨s1, e1, j1, q1⟩ := ton_is hT i1 c.input c.a1 c.a2
    obtain ⟨s2, e2, j2, q2⟩ := ton_is hT i2 (!c.input) c.b1 c.b2
    rw [runFB_snoc_ok e]
    refine ⟨_, by simp [debounce, e1, e2, RS.call]; rfl, ?_, ?_⟩
    · unfold up; rw [startOf_snoc]; exact j1
    · unfold down; rw [startOf_snoc]; exact j2

private theorem debounced_snoc {T : Int} (hT : 0 ≤ T ∧ T < 2 ^ 63) (h : List ChainIn) (c : ChainIn) :
    ∃ q, debounced T h = .ok q ∧ debounced T (h ++ [c]) =
      .ok (if tonQ T (down h) (!c.input) c.b2 then false else if tonQ T (up h) c.input c.a2 then true else q) := by
  obtain ⟨s, e, i1, i2⟩ := debounce_is hT h
  obtain ⟨s1, e1, j1, q1⟩ := ton_is hT i1 c.input c.a1 c.a2
  obtain ⟨s2, e2, j2, q2⟩ := ton_is hT i2 (!c.input) c.b1 c.b2
  refine ⟨s.2.2.output, by simp [debounced, outputs, e], ?_⟩
  unfold debounced outputs
  rw [runFB_snoc_ok e, ← q1, ← q2]
  simp only [debounce, e1, e2, Res.bind_ok, RS.call, RS]
  cases s1.output <;> cases s2.output <;> simp

/-- **C123**: the program never aborts, and before the first scan the output is FALSE. -/
theorem C123_no_abort (T : Int) (hT : 0 ≤ T ∧ T < 2 ^ 63) (h : List ChainIn) :
    debounced T [] = .ok false ∧ ∃ q, debounced T h = .ok q := by
  refine ⟨rfl, ?_⟩
  obtain ⟨s, e, _⟩ := debounce_is hT h
  exact ⟨s.2.2.output, by simp [debounced, outputs, e]⟩

/-- **C123**: the output changes only to a value that the input has had for more than `T`. -/
theorem C123_no_glitch (T : Int) (hT : 0 ≤ T ∧ T < 2 ^ 63) (h : List ChainIn) (c : ChainIn) (hc : ChainClock (h ++ [c]))
    (q v : Bool) (h0 : debounced T h = .ok q) (h1 : debounced T (h ++ [c]) = .ok v) (hne : v ≠ q) :
    ∃ pre first run, h = pre ++ first :: run ∧ (∀ d ∈ first :: run ++ [c], d.input = v) ∧ (c.b2 : Int) - first.a1 > T := by
  obtain ⟨q', hq', hs⟩ := debounced_snoc hT h c
  rw [h0] at hq'; cases hq'
  rw [h1] at hs
  have hv := Res.ok.inj hs
  obtain ⟨-, c1, c2, c3, hd⟩ := chainClock_snoc hc
  cases v with
  | false =>
    have hq2 : tonQ T (down h) (!c.input) c.b2 = true := by
      revert hv
      cases tonQ T (down h) (!c.input) c.b2 <;> cases tonQ T (up h) c.input c.a2 <;> simp
      cases q <;> simp_all
    cases hst : down h with
    | none => simp [tonQ, hst] at hq2
    | some t =>
      obtain ⟨pre, first, run, e, hr, ht⟩ := startOf_some _ _ h t hst
      simp [tonQ, hst] at hq2
      have hf := hd first (by rw [e]; simp)
      refine ⟨pre, first, run, e, ?_, by omega⟩
      intro d hdm
      rcases List.mem_append.1 hdm with hdm | hdm
      · simpa using hr d hdm
      · rw [List.mem_singleton.1 hdm]; exact hq2.1
  | true =>
    have hq1 : tonQ T (up h) c.input c.a2 = true := by
      revert hv
      cases tonQ T (down h) (!c.input) c.b2 <;> cases tonQ T (up h) c.input c.a2 <;> simp
      cases q <;> simp_all
    cases hst : up h with
    | none => simp [tonQ, hst] at hq1
    | some t =>
      obtain ⟨pre, first, run, e, hr, ht⟩ := startOf_some _ _ h t hst
      simp [tonQ, hst] at hq1
      refine ⟨pre, first, run, e, ?_, by omega⟩
      intro d hdm
      rcases List.mem_append.1 hdm with hdm | hdm
      · exact hr d hdm
      · rw [List.mem_singleton.1 hdm]; exact hq1.1

/-- **C123**: as long as the input never has the other value for more than `T`, the output stays: bouncing is suppressed. -/
theorem C123_stays (T : Int) (hT : 0 ≤ T ∧ T < 2 ^ 63) (h : List ChainIn) (v : Bool) (h0 : debounced T h = .ok v)
    (more : List ChainIn) (hc : ChainClock (h ++ more))
    (hshort : ∀ pre first run last post, h ++ more = pre ++ first :: run ++ last :: post →
      (∀ d ∈ first :: run ++ [last], d.input = !v) → (last.b2 : Int) - first.a1 ≤ T) :
    debounced T (h ++ more) = .ok v := by
  revert hc hshort
  refine snoc_induction ?_ ?_ more
  · intro _ _; simpa using h0
  · intro more c ih hc hshort
    have e : h ++ (more ++ [c]) = (h ++ more) ++ [c] := by simp
    rw [e] at hc ⊢
    have hp := ih (chainClock_snoc hc).1 fun pre first run last post he hd => hshort pre first run last (post ++ [c]) (by
      rw [e, he]; simp) hd
    obtain ⟨_, w, hw⟩ := C123_no_abort T hT ((h ++ more) ++ [c])
    by_cases hwv : w = v
    · rw [hw, hwv]
    · obtain ⟨pre, first, run, he, hd, hlong⟩ := C123_no_glitch T hT _ c hc v w hp hw hwv
      have := hshort pre first run c [] (by rw [e, he]) (fun d hdm => by
        rw [hd d hdm]; cases w <;> cases v <;> simp_all)
      omega

/-- **C123**: when the input has had the value `v` for more than `T` (from the end of one scan to the beginning of another), that is
the output. -/
theorem C123_follows (T : Int) (hT : 0 ≤ T ∧ T < 2 ^ 63) (pre : List ChainIn) (first : ChainIn) (run : List ChainIn) (c : ChainIn)
    (v : Bool) (hc : ChainClock (pre ++ first :: run ++ [c])) (hin : ∀ d ∈ first :: run ++ [c], d.input = v)
    (hlong : (c.a1 : Int) - first.b2 > T) : debounced T (pre ++ first :: run ++ [c]) = .ok v := by
  obtain ⟨q, -, hs⟩ := debounced_snoc hT (pre ++ first :: run) c
  rw [hs]
  obtain ⟨hcp, c1, c2, c3, hd⟩ := chainClock_snoc hc
  have hci := hin c (by simp)
  have hr : ∀ d ∈ first :: run, d.input = v := fun d hdm => hin d (List.mem_append_left _ hdm)
  have hf := hd first (by simp)
  have hcpf : ChainClock (pre ++ [first]) := by
    rw [show pre ++ first :: run = (pre ++ [first]) ++ run by simp] at hcp
    unfold ChainClock at hcp ⊢
    rw [List.flatMap_append] at hcp
    exact (List.pairwise_append.1 hcp).1
  obtain ⟨-, -, -, -, hdf⟩ := chainClock_snoc hcpf
  cases v with
  | true =>
    obtain ⟨t, h1, h2⟩ := startOf_run (·.input) (·.a1) pre first run hr
    have ht : t ≤ first.a1 := by
      rcases h2 with h2 | h2
      · omega
      · obtain ⟨p', f', r', e, -, rfl⟩ := startOf_some _ _ pre t h2
        have := hdf f' (by rw [e]; simp)
        omega
    have hq : tonQ T (up (pre ++ first :: run)) c.input c.a2 = true := by
      unfold up; rw [h1]; simp [tonQ, hci]; omega
    have hq' : tonQ T (down (pre ++ first :: run)) (!c.input) c.b2 = false := by
      cases down (pre ++ first :: run) <;> simp [tonQ, hci]
    rw [hq, hq']; rfl
  | false =>
    obtain ⟨t, h1, h2⟩ := startOf_run (!·.input) (·.b1) pre first run (fun d hdm => by simp [hr d hdm])
    have ht : t ≤ first.b1 := by
      rcases h2 with h2 | h2
      · omega
      · obtain ⟨p', f', r', e, -, rfl⟩ := startOf_some _ _ pre t h2
        have := hdf f' (by rw [e]; simp)
        omega
    have hq : tonQ T (down (pre ++ first :: run)) (!c.input) c.b2 = true := by
      unfold down; rw [h1]; simp [tonQ, hci]; omega
    rw [hq]; rfl

/-- T = 3, scans every 2.  The input bounces (TRUE at 2, FALSE at 4, TRUE from 6 on, FALSE for one scan at 14): the output is TRUE from
10 on. -/
example :
    debounced 3 [⟨false, 0, 0, 0, 0⟩, ⟨true, 2, 2, 2, 2⟩, ⟨false, 4, 4, 4, 4⟩, ⟨true, 6, 6, 6, 6⟩, ⟨true, 8, 8, 8, 8⟩] = .ok false ∧
    debounced 3 [⟨false, 0, 0, 0, 0⟩, ⟨true, 2, 2, 2, 2⟩, ⟨false, 4, 4, 4, 4⟩, ⟨true, 6, 6, 6, 6⟩, ⟨true, 8, 8, 8, 8⟩,
      ⟨true, 10, 10, 10, 10⟩] = .ok true ∧
    debounced 3 [⟨false, 0, 0, 0, 0⟩, ⟨true, 2, 2, 2, 2⟩, ⟨false, 4, 4, 4, 4⟩, ⟨true, 6, 6, 6, 6⟩, ⟨true, 8, 8, 8, 8⟩,
      ⟨true, 10, 10, 10, 10⟩, ⟨false, 12, 12, 12, 12⟩, ⟨true, 14, 14, 14, 14⟩] = .ok true ∧
    ChainClock [⟨false, 0, 0, 0, 0⟩, ⟨true, 2, 2, 2, 2⟩, ⟨false, 4, 4, 4, 4⟩, ⟨true, 6, 6, 6, 6⟩, ⟨true, 8, 8, 8, 8⟩,
      ⟨true, 10, 10, 10, 10⟩, ⟨false, 12, 12, 12, 12⟩, ⟨true, 14, 14, 14, 14⟩] := by
  refine ⟨by decide, by decide, by decide, by unfold ChainClock; decide⟩

end Verif
