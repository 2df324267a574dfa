import Verif.Model.SharedInstance
import Verif.Props.PowerFailure
/-
C150: two tasks call the same instance of a function block, and one of them interrupts a call of the other.

Model/SharedInstance.lean takes a call apart into its loads and stores.
-/
namespace Verif
open Spec

/-! ### Specification -/

/-- What the two tasks see is what they see if the calls take place one after the other: the outputs each of them reads when its call has returned, and all
outputs of later calls. `a` are the inputs of the interrupted call, which returns with memory `mA`; `b` and `mB` are those of the interrupting call. -/
def OneAfterTheOther {S I O : Type} (call : S → I → Res S) (obs : S → O) (s : S) (a b : I) (mA mB : S) : Prop :=
  (∃ x y, call s b = .ok x ∧ call x a = .ok y ∧ obs mB = obs x ∧ obs mA = obs y ∧ SameFrom call obs mA y) ∨
  (∃ x y, call s a = .ok x ∧ call x b = .ok y ∧ obs mA = obs x ∧ obs mB = obs y ∧ SameFrom call obs mA y)

/-- Two tasks may share an instance: wherever one interrupts a call of the other, after any history, the calls act as if they took place one after the other. -/
def MayBeShared {S I O : Type} (call : S → I → Res S) (steps : I → Steps S) (fresh : S) (obs : S → O) : Prop :=
  ∀ h s a b k mB mA, runFB call fresh h = .ok s → (steps a).interrupted k (call · b) s = .ok (mB, mA) → OneAfterTheOther call obs s a b mA mB

/-! ### A call that is not interrupted -/

private theorem arith_cases (t : IntTy) (p : Profile) (x : Int) : (∃ v, t.arith p x = .ok v) ∨ t.arith p x = .panic := by
  unfold IntTy.arith
  split
  · exact .inl ⟨_, rfl⟩
  · cases p
    · exact .inr rfl
    · exact .inl ⟨_, rfl⟩

private theorem ctu_steps (t : IntTy) (p : Profile) (s : CTUParams) (i : CTUIn) : (ctuSteps t p i).run s = ctuCall t p s i := by
  obtain ⟨_, _, _, _, cv, ⟨e⟩⟩ := s
  obtain ⟨cu, r, pv⟩ := i
  cases r <;> cases cu <;> cases e <;> try rfl
  by_cases hlt : cv < t.hi <;> rcases arith_cases t p (cv + 1) with ⟨v, ha⟩ | ha <;>
    simp [ctuCall, ctu, ctuSteps, ctuStepsEnd, Steps.run, Steps.rising_edge, CTUParams.r_edge, Signal.rising_edge, CTUParams.inc, CTUParams.update_q, hlt, ha]

private theorem ctd_steps (t : IntTy) (p : Profile) (s : CTDParams) (i : CTDIn) : (ctdSteps t p i).run s = ctdCall t p s i := by
  obtain ⟨_, _, _, _, cv, ⟨e⟩⟩ := s
  obtain ⟨cd, ld, pv⟩ := i
  cases ld <;> cases cd <;> cases e <;> try rfl
  by_cases hlt : cv > t.lo <;> rcases arith_cases t p (cv - 1) with ⟨v, ha⟩ | ha <;>
    simp [ctdCall, ctd, ctdSteps, ctdStepsEnd, Steps.run, Steps.rising_edge, CTDParams.r_edge, Signal.rising_edge, CTDParams.dec, CTDParams.update_q, hlt, ha]

private theorem ctud_steps (t : IntTy) (p : Profile) (s : CTUDParams) (i : CTUDIn) : (ctudSteps t p i).run s = ctudCall t p s i := by
  obtain ⟨_, _, _, _, _, _, _, cv, ⟨e⟩, ⟨e'⟩⟩ := s
  obtain ⟨cu, cd, r, ld, pv⟩ := i
  cases r
  case true => rfl
  cases ld
  case true => rfl
  cases cu <;> cases e <;> cases cd <;> cases e' <;> try rfl
  all_goals
    first
    | (by_cases hlt : cv < t.hi
       · rcases arith_cases t p (cv + 1) with ⟨v, ha⟩ | ha <;>
         simp [ctudCall, ctud, ctudSteps, ctudStepsEnd, Steps.run, Steps.rising_edge, CTUDParams.cu_r_edge, CTUDParams.cd_r_edge, Signal.rising_edge,
          CTUDParams.inc, CTUDParams.update_qu, CTUDParams.update_qd, hlt, ha] <;> done
       · simp [ctudCall, ctud, ctudSteps, ctudStepsEnd, Steps.run, Steps.rising_edge, CTUDParams.cu_r_edge, CTUDParams.cd_r_edge, Signal.rising_edge,
          CTUDParams.update_qu, CTUDParams.update_qd, hlt])
    | (by_cases hlt : cv > t.lo
       · rcases arith_cases t p (cv - 1) with ⟨v, ha⟩ | ha <;>
         simp [ctudCall, ctud, ctudSteps, ctudStepsEnd, Steps.run, Steps.rising_edge, CTUDParams.cu_r_edge, CTUDParams.cd_r_edge, Signal.rising_edge,
          CTUDParams.dec, CTUDParams.update_qu, CTUDParams.update_qd, hlt, ha]
       · simp [ctudCall, ctud, ctudSteps, ctudStepsEnd, Steps.run, Steps.rising_edge, CTUDParams.cu_r_edge, CTUDParams.cd_r_edge, Signal.rising_edge,
          CTUDParams.update_qu, CTUDParams.update_qd, hlt])

private theorem tp_steps (s : TimerParams) (i : TimerIn) : (TP.steps i).run s = TP.call s i := by
  obtain ⟨_, _, q, et, ⟨e⟩, st⟩ := s
  obtain ⟨inp, pt, t1, t2⟩ := i
  cases st with
  | none => cases inp <;> cases e <;> rfl
  | some st =>
    cases hr : (TimerParams.is_in_preset_range ⟨inp, pt, q, min pt (IntTy.i64.wrap ↑(t1 - st)), ⟨e⟩, some st⟩ t2) <;> cases inp <;> cases e <;>
      simp [TP.steps, TP.call, TP, Steps.run, TimerParams.updateSteps, TimerParams.rangeSteps, TimerParams.fallSteps, TimerParams.finishSteps, TimerParams.is_running,
        TimerParams.get_run_time, TimerParams.update_elapsed_time, Steps.falling_edge, TimerParams.input_falling_edge, Signal.falling_edge, TimerParams.resetSteps, TimerParams.reset,
        TimerParams.finish, Signal.set, hr]

private theorem ton_steps (s : TimerParams) (i : TimerIn) : (TON.steps i).run s = TON.call s i := by
  obtain ⟨_, _, q, et, ⟨e⟩, st⟩ := s
  obtain ⟨inp, pt, t1, t2⟩ := i
  cases inp
  case false => rfl
  cases st with
  | none => cases e <;> rfl
  | some st => rfl

private theorem tof_steps (s : TimerParams) (i : TimerIn) : (TOF.steps i).run s = TOF.call s i := by
  obtain ⟨_, _, q, et, ⟨e⟩, st⟩ := s
  obtain ⟨inp, pt, t1, t2⟩ := i
  cases inp
  case true => cases e <;> rfl
  cases e
  case true => rfl
  cases st <;> rfl


/-- Loads and stores that are not interrupted are the call. -/
theorem steps_call (t : IntTy) (p : Profile) :
    (∀ s i, (R_TRIG.steps i).run s = R_TRIG.call s i) ∧
    (∀ s i, (F_TRIG.steps i).run s = F_TRIG.call s i) ∧
    (∀ s i, (SR.steps i).run s = SR.call s i) ∧
    (∀ s i, (RS.steps i).run s = RS.call s i) ∧
    (∀ s i, (ctuSteps t p i).run s = ctuCall t p s i) ∧
    (∀ s i, (ctdSteps t p i).run s = ctdCall t p s i) ∧
    (∀ s i, (ctudSteps t p i).run s = ctudCall t p s i) ∧
    (∀ s i, (TP.steps i).run s = TP.call s i) ∧
    (∀ s i, (TON.steps i).run s = TON.call s i) ∧
    (∀ s i, (TOF.steps i).run s = TOF.call s i) := by
  refine ⟨?_, ?_, fun _ _ => rfl, fun _ _ => rfl, ctu_steps t p, ctd_steps t p, ctud_steps t p, tp_steps, ton_steps, tof_steps⟩
  · intro s i
    cases i <;> rfl
  · intro s i
    cases i <;> rfl

/-! ### Where it is false -/

private theorem not_shared {S I O : Type} {call : S → I → Res S} {steps : I → Steps S} {fresh : S} {obs : S → O} {h : List I} {a b : I} {k : Nat}
    {s mA mB x y x' y' : S} (later : List I) (hl : later ≠ []) (hs : runFB call fresh h = .ok s)
    (hi : (steps a).interrupted k (call · b) s = .ok (mB, mA))
    (hx : call s b = .ok x) (hy : call x a = .ok y) (hx' : call s a = .ok x') (hy' : call x' b = .ok y')
    (h1 : ¬ (obs mB = obs x ∧ obs mA = obs y ∧ outputs call mA obs later = outputs call y obs later))
    (h2 : ¬ (obs mA = obs x' ∧ obs mB = obs y' ∧ outputs call mA obs later = outputs call y' obs later)) : ¬ MayBeShared call steps fresh obs := by
  intro hall
  rcases hall h s a b k mB mA hs hi with ⟨u, v, hu, hv, e1, e2, e3⟩ | ⟨u, v, hu, hv, e1, e2, e3⟩
  · cases Res.ok.inj (hx.symm.trans hu)
    cases Res.ok.inj (hy.symm.trans hv)
    exact h1 ⟨e1, e2, e3 later hl⟩
  · cases Res.ok.inj (hx'.symm.trans hu)
    cases Res.ok.inj (hy'.symm.trans hv)
    exact h2 ⟨e1, e2, e3 later hl⟩

/-- **C150** is false.

* R_TRIG, F_TRIG: both tasks are told of the same edge.
* SR, RS: a call with S = R = FALSE, which is to keep the output, undoes a set of the other task.
* CTU, CTD, CTUD: both tasks count the same edge.
* TP: the interrupted call works with the PT of the other task. (It can also panic, see C151.)
* TON: the interrupted call finds the timer not running before the other task has started it, and no edge afterwards, and sets Q at once.
* TOF: the interrupted call works with the IN of the other task. -/
theorem C150_refuted (p : Profile) :
    ¬ MayBeShared R_TRIG.call R_TRIG.steps Trigger.default (·.output) ∧
    ¬ MayBeShared F_TRIG.call F_TRIG.steps Trigger.default (·.output) ∧
    ¬ MayBeShared SR.call SR.steps SetResetParams.default (·.output) ∧
    ¬ MayBeShared RS.call RS.steps SetResetParams.default (·.output) ∧
    (∀ t, CounterTy t → ¬ MayBeShared (ctuCall t p) (ctuSteps t p) CTUParams.default ctuOutputs) ∧
    (∀ t, CounterTy t → ¬ MayBeShared (ctdCall t p) (ctdSteps t p) CTDParams.default ctdOutputs) ∧
    (∀ t, CounterTy t → ¬ MayBeShared (ctudCall t p) (ctudSteps t p) CTUDParams.default ctudOutputs) ∧
    ¬ MayBeShared TP.call TP.steps TimerParams.default timerOutputs ∧
    ¬ MayBeShared TON.call TON.steps TimerParams.default timerOutputs ∧
    ¬ MayBeShared TOF.call TOF.steps TimerParams.default timerOutputs := by
  refine ⟨?_, ?_, ?_, ?_, ?_, ?_, ?_, ?_, ?_, ?_⟩
  · exact not_shared [true] (by simp) (h := []) (a := true) (b := true) (k := 3) (mB := ⟨true, true, ⟨true⟩⟩) (mA := ⟨true, true, ⟨true⟩⟩) rfl rfl rfl rfl rfl rfl (by decide) (by decide)
  · exact not_shared [true] (by simp) (h := [true]) (a := false) (b := false) (k := 3) (mB := ⟨false, true, ⟨false⟩⟩) (mA := ⟨false, true, ⟨false⟩⟩) rfl rfl rfl rfl rfl rfl
      (by decide) (by decide)
  · exact not_shared [⟨false, false⟩] (by simp) (h := []) (a := ⟨false, false⟩) (b := ⟨true, false⟩) (k := 5) (mB := ⟨true, false, true⟩) (mA := ⟨true, false, false⟩) rfl rfl rfl rfl rfl rfl
      (by decide) (by decide)
  · exact not_shared [⟨false, false⟩] (by simp) (h := []) (a := ⟨false, false⟩) (b := ⟨true, false⟩) (k := 5) (mB := ⟨true, false, true⟩) (mA := ⟨true, false, false⟩) rfl rfl rfl rfl rfl rfl
      (by decide) (by decide)
  · intro t ht
    refine not_shared [⟨true, false, 5⟩] (by simp) (h := []) (a := ⟨true, false, 5⟩) (b := ⟨true, false, 5⟩) (k := 6) (s := CTUParams.default) (mB := ⟨true, false, 5, false, 1, ⟨true⟩⟩)
      (mA := ⟨true, false, 5, false, 2, ⟨true⟩⟩) (x := ⟨true, false, 5, false, 1, ⟨true⟩⟩) (y := ⟨true, false, 5, false, 1, ⟨true⟩⟩)
      (x' := ⟨true, false, 5, false, 1, ⟨true⟩⟩) (y' := ⟨true, false, 5, false, 1, ⟨true⟩⟩) rfl ?_ ?_ ?_ ?_ ?_ ?_ ?_ <;>
      rcases ht with rfl | rfl | rfl | rfl | rfl <;> cases p <;> decide
  · intro t ht
    refine not_shared [⟨true, false, 5⟩] (by simp) (h := [⟨false, true, 5⟩]) (a := ⟨true, false, 5⟩) (b := ⟨true, false, 5⟩) (k := 6) (s := ⟨false, true, 5, false, 5, ⟨false⟩⟩)
      (mB := ⟨true, false, 5, false, 4, ⟨true⟩⟩)
      (mA := ⟨true, false, 5, false, 3, ⟨true⟩⟩) (x := ⟨true, false, 5, false, 4, ⟨true⟩⟩) (y := ⟨true, false, 5, false, 4, ⟨true⟩⟩)
      (x' := ⟨true, false, 5, false, 4, ⟨true⟩⟩) (y' := ⟨true, false, 5, false, 4, ⟨true⟩⟩) ?_ ?_ ?_ ?_ ?_ ?_ ?_ ?_ <;>
      rcases ht with rfl | rfl | rfl | rfl | rfl <;> cases p <;> decide
  · intro t ht
    refine not_shared [⟨true, false, false, false, 5⟩] (by simp) (h := []) (a := ⟨true, false, false, false, 5⟩) (b := ⟨true, false, false, false, 5⟩) (k := 9) (s := CTUDParams.default)
      (mB := ⟨true, false, false, false, 5, false, false, 1, ⟨true⟩, ⟨false⟩⟩) (mA := ⟨true, false, false, false, 5, false, false, 2, ⟨true⟩, ⟨false⟩⟩)
      (x := ⟨true, false, false, false, 5, false, false, 1, ⟨true⟩, ⟨false⟩⟩) (y := ⟨true, false, false, false, 5, false, false, 1, ⟨true⟩, ⟨false⟩⟩)
      (x' := ⟨true, false, false, false, 5, false, false, 1, ⟨true⟩, ⟨false⟩⟩) (y' := ⟨true, false, false, false, 5, false, false, 1, ⟨true⟩, ⟨false⟩⟩) rfl ?_ ?_ ?_ ?_ ?_ ?_ ?_ <;>
      rcases ht with rfl | rfl | rfl | rfl | rfl <;> cases p <;> decide
  · exact not_shared [⟨true, 100, 60, 60⟩] (by simp) (h := [⟨true, 100, 0, 0⟩]) (a := ⟨true, 100, 50, 50⟩) (b := ⟨true, 10, 50, 50⟩) (k := 2)
      (mB := ⟨true, 10, false, 10, ⟨true⟩, some 0⟩) (mA := ⟨true, 10, false, 10, ⟨true⟩, some 0⟩) rfl rfl rfl rfl rfl rfl (by decide) (by decide)
  · exact not_shared [⟨true, 100, 60, 60⟩] (by simp) (h := []) (a := ⟨true, 100, 0, 0⟩) (b := ⟨true, 100, 0, 0⟩) (k := 4)
      (mB := ⟨true, 100, false, 0, ⟨true⟩, some 0⟩) (mA := ⟨true, 100, true, 0, ⟨true⟩, some 0⟩) rfl rfl rfl rfl rfl rfl (by decide) (by decide)
  · exact not_shared [⟨true, 0, 60, 60⟩] (by simp) (h := [⟨true, 0, 0, 0⟩]) (a := ⟨true, 0, 50, 50⟩) (b := ⟨false, 0, 40, 40⟩) (k := 1)
      (mB := ⟨false, 0, true, 0, ⟨false⟩, some 40⟩) (mA := ⟨false, 0, false, 0, ⟨false⟩, some 40⟩) rfl rfl rfl rfl rfl rfl (by decide) (by decide)

/-! ### Two tasks that call with the same inputs -/

/-- **C150** for SR and RS, if both tasks pass the same inputs: the calls act as if they took place one after the other. -/
theorem C150_latches_partial (s : SetResetParams) (i : LatchIn) (k : Nat) :
    (∃ mB mA, (SR.steps i).interrupted k (SR.call · i) s = .ok (mB, mA) ∧ OneAfterTheOther SR.call (·.output) s i i mA mB) ∧
    (∃ mB mA, (RS.steps i).interrupted k (RS.call · i) s = .ok (mB, mA) ∧ OneAfterTheOther RS.call (·.output) s i i mA mB) := by
  obtain ⟨_, _, q⟩ := s
  obtain ⟨a, b⟩ := i
  rcases k with _ | _ | _ | _ | _ | _ | _ | k
  all_goals
    cases a <;> cases b <;> cases q <;>
      exact ⟨⟨_, _, rfl, .inl ⟨_, _, rfl, rfl, rfl, rfl, same_of_call _ fun _ => rfl⟩⟩, ⟨_, _, rfl, .inl ⟨_, _, rfl, rfl, rfl, rfl, same_of_call _ fun _ => rfl⟩⟩⟩

/-- R_TRIG and F_TRIG, if both tasks pass the same input: all later calls are as if the two calls had taken place one after the other. (Which of the
tasks are told of an edge is open, see the example below.) -/
theorem C150_flanks_partial (s : Trigger) (i : Bool) (k : Nat) :
    (∃ mB mA x y, (R_TRIG.steps i).interrupted k (R_TRIG.call · i) s = .ok (mB, mA) ∧ R_TRIG.call s i = .ok x ∧ R_TRIG.call x i = .ok y ∧
      SameFrom R_TRIG.call (·.output) mA y) ∧
    (∃ mB mA x y, (F_TRIG.steps i).interrupted k (F_TRIG.call · i) s = .ok (mB, mA) ∧ F_TRIG.call s i = .ok x ∧ F_TRIG.call x i = .ok y ∧
      SameFrom F_TRIG.call (·.output) mA y) := by
  obtain ⟨_, _, ⟨e⟩⟩ := s
  rcases k with _ | _ | _ | _ | _ | _ | k
  all_goals
    cases i <;> cases e <;> exact ⟨⟨_, _, _, _, rfl, rfl, rfl, same_of_call _ fun _ => rfl⟩, ⟨_, _, _, _, rfl, rfl, rfl, same_of_call _ fun _ => rfl⟩⟩

/-- The outputs that the interrupting and the interrupted task read for one rising edge: both TRUE, only the second TRUE, or (if the interruption
comes just before the interrupted task reads the output) none TRUE. -/
example : (List.range 6).map (fun k => (R_TRIG.steps true).interrupted k (R_TRIG.call · true) Trigger.default) =
    [.ok (⟨true, true, ⟨true⟩⟩, ⟨true, false, ⟨true⟩⟩), .ok (⟨true, true, ⟨true⟩⟩, ⟨true, false, ⟨true⟩⟩), .ok (⟨true, true, ⟨true⟩⟩, ⟨true, false, ⟨true⟩⟩),
     .ok (⟨true, true, ⟨true⟩⟩, ⟨true, true, ⟨true⟩⟩), .ok (⟨true, false, ⟨true⟩⟩, ⟨true, true, ⟨true⟩⟩),
     .ok (⟨true, false, ⟨true⟩⟩, ⟨true, false, ⟨true⟩⟩)] := by decide

/-- CTU, if both tasks pass the same inputs: the interrupted call returns, and the memory is that of two calls one after the other, or that of two calls with a
call with CU = FALSE between them. So an edge is counted once or twice, and not missed. -/
theorem C150_ctu_partial (t : IntTy) (p : Profile) (s : CTUParams) (hs : t.InRange s.cv) (i : CTUIn) (k : Nat) :
    ∃ mB mA, (ctuSteps t p i).interrupted k (ctuCall t p · i) s = .ok (mB, mA) ∧
      (runFB (ctuCall t p) s [i, i] = .ok mA ∨ runFB (ctuCall t p) s [i, { i with cu := false }, i] = .ok mA) := by
  obtain ⟨cu0, r0, pv0, q0, cv, ⟨e⟩⟩ := s
  obtain ⟨cu, r, pv⟩ := i
  simp only at hs
  by_cases hedge : r = false ∧ cu = true ∧ e = false
  · obtain ⟨rfl, rfl, rfl⟩ := hedge
    by_cases hlt : cv < t.hi
    · have h1 : t.arith p (cv + 1) = .ok (cv + 1) := by
        unfold IntTy.arith
        rw [if_pos ⟨by have := hs.1; omega, by omega⟩]
      by_cases hlt' : cv + 1 < t.hi
      · have h2 : t.arith p (cv + 1 + 1) = .ok (cv + 1 + 1) := by
          unfold IntTy.arith
          rw [if_pos ⟨by have := hs.1; omega, by omega⟩]
        rcases k with _ | _ | _ | _ | _ | _ | _ | _ | _ | _ | _ | _ | _ | _ | k <;>
          simp [Steps.interrupted, Steps.run, ctuSteps, ctuStepsEnd, Steps.rising_edge, ctuCall, ctu, CTUParams.r_edge, Signal.rising_edge, CTUParams.inc, CTUParams.update_q, runFB,
            hlt, h1, hlt', h2]
      · rcases k with _ | _ | _ | _ | _ | _ | _ | _ | _ | _ | _ | _ | _ | _ | k <;>
          simp [Steps.interrupted, Steps.run, ctuSteps, ctuStepsEnd, Steps.rising_edge, ctuCall, ctu, CTUParams.r_edge, Signal.rising_edge, CTUParams.inc, CTUParams.update_q, runFB,
            hlt, h1, hlt']
    · rcases k with _ | _ | _ | _ | _ | _ | _ | _ | _ | _ | _ | _ | _ | _ | k <;>
        simp [Steps.interrupted, Steps.run, ctuSteps, ctuStepsEnd, Steps.rising_edge, ctuCall, ctu, CTUParams.r_edge, Signal.rising_edge, CTUParams.update_q, runFB, hlt]
  · have : ∃ mB mA, (ctuSteps t p ⟨cu, r, pv⟩).interrupted k (ctuCall t p · ⟨cu, r, pv⟩) ⟨cu0, r0, pv0, q0, cv, ⟨e⟩⟩ = .ok (mB, mA) ∧
        runFB (ctuCall t p) ⟨cu0, r0, pv0, q0, cv, ⟨e⟩⟩ [⟨cu, r, pv⟩, ⟨cu, r, pv⟩] = .ok mA := by
      rcases k with _ | _ | _ | _ | _ | _ | _ | _ | _ | _ | _ | _ | _ | _ | k <;>
        cases r <;> cases cu <;> cases e <;> first | exact ⟨_, _, rfl, rfl⟩ | exact absurd ⟨rfl, rfl, rfl⟩ hedge
    obtain ⟨mB, mA, h1, h2⟩ := this
    exact ⟨mB, mA, h1, .inl h2⟩

/-- CTD, if both tasks pass the same inputs: the interrupted call returns, and the memory is that of two calls one after the other, or that of two calls with a
call with CD = FALSE between them. So an edge is subtracted once or twice, and not missed. -/
theorem C150_ctd_partial (t : IntTy) (p : Profile) (s : CTDParams) (hs : t.InRange s.cv) (i : CTDIn) (k : Nat) :
    ∃ mB mA, (ctdSteps t p i).interrupted k (ctdCall t p · i) s = .ok (mB, mA) ∧
      (runFB (ctdCall t p) s [i, i] = .ok mA ∨ runFB (ctdCall t p) s [i, { i with cd := false }, i] = .ok mA) := by
  obtain ⟨cu0, r0, pv0, q0, cv, ⟨e⟩⟩ := s
  obtain ⟨cu, r, pv⟩ := i
  simp only at hs
  by_cases hedge : r = false ∧ cu = true ∧ e = false
  · obtain ⟨rfl, rfl, rfl⟩ := hedge
    by_cases hlt : cv > t.lo
    · have h1 : t.arith p (cv - 1) = .ok (cv - 1) := by
        unfold IntTy.arith
        rw [if_pos ⟨by omega, by have := hs.2; omega⟩]
      by_cases hlt' : cv - 1 > t.lo
      · have h2 : t.arith p (cv - 1 - 1) = .ok (cv - 1 - 1) := by
          unfold IntTy.arith
          rw [if_pos ⟨by omega, by have := hs.2; omega⟩]
        rcases k with _ | _ | _ | _ | _ | _ | _ | _ | _ | _ | _ | _ | _ | k <;>
          simp [Steps.interrupted, Steps.run, ctdSteps, ctdStepsEnd, Steps.rising_edge, ctdCall, ctd, CTDParams.r_edge, Signal.rising_edge, CTDParams.dec, CTDParams.update_q, runFB,
            hlt, h1, hlt', h2]
      · rcases k with _ | _ | _ | _ | _ | _ | _ | _ | _ | _ | _ | _ | _ | k <;>
          simp [Steps.interrupted, Steps.run, ctdSteps, ctdStepsEnd, Steps.rising_edge, ctdCall, ctd, CTDParams.r_edge, Signal.rising_edge, CTDParams.dec, CTDParams.update_q, runFB,
            hlt, h1, hlt']
    · rcases k with _ | _ | _ | _ | _ | _ | _ | _ | _ | _ | _ | _ | _ | k <;>
        simp [Steps.interrupted, Steps.run, ctdSteps, ctdStepsEnd, Steps.rising_edge, ctdCall, ctd, CTDParams.r_edge, Signal.rising_edge, CTDParams.update_q, runFB, hlt]
  · have : ∃ mB mA, (ctdSteps t p ⟨cu, r, pv⟩).interrupted k (ctdCall t p · ⟨cu, r, pv⟩) ⟨cu0, r0, pv0, q0, cv, ⟨e⟩⟩ = .ok (mB, mA) ∧
        runFB (ctdCall t p) ⟨cu0, r0, pv0, q0, cv, ⟨e⟩⟩ [⟨cu, r, pv⟩, ⟨cu, r, pv⟩] = .ok mA := by
      rcases k with _ | _ | _ | _ | _ | _ | _ | _ | _ | _ | _ | _ | _ | k <;>
        cases r <;> cases cu <;> cases e <;> first | exact ⟨_, _, rfl, rfl⟩ | exact absurd ⟨rfl, rfl, rfl⟩ hedge
    obtain ⟨mB, mA, h1, h2⟩ := this
    exact ⟨mB, mA, h1, .inl h2⟩

/-- Both occur: interrupted between the load and the store of the edge memory (6 accesses in) the edge is counted twice, one access later once. -/
example : (((ctuSteps .i16 .debug ⟨true, false, 5⟩).interrupted 6 (ctuCall .i16 .debug · ⟨true, false, 5⟩) CTUParams.default).bind fun r => .ok r.2.cv) = .ok 2 ∧
    (((ctuSteps .i16 .debug ⟨true, false, 5⟩).interrupted 7 (ctuCall .i16 .debug · ⟨true, false, 5⟩) CTUParams.default).bind fun r => .ok r.2.cv) = .ok 1 := by
  decide

end Verif
