import Verif.Model.Counters
import Verif.Model.Timers
import Verif.Spec.FunctionBlocks
import Verif.Proofs.Lists
/-
C103, C104: what function blocks do not depend on. C103: how often a block is called while its inputs do not change.
C104: the origin of the clock.
-/
namespace Verif
open Spec TimerParams

/-- What the program sees of a history: the outputs `obs` after its last call, or how the program ended. -/
def outputs {S I O : Type} (call : S → I → Res S) (fresh : S) (obs : S → O) (h : List I) : Res O :=
  runFB call fresh h >>= fun s => .ok (obs s)

/-- A call with inputs `j` directly after one with the `same` inputs `i` does not change the outputs of any later call. -/
def ExtraScanInvisible {S I O : Type} (call : S → I → Res S) (fresh : S) (obs : S → O) (same : I → I → Prop) : Prop :=
  ∀ (h : List I) (i j : I) (later : List I), same i j → later ≠ [] →
    outputs call fresh obs (h ++ [i, j] ++ later) = outputs call fresh obs (h ++ [i] ++ later)

private theorem invisible_of_step {S I O : Type} {call : S → I → Res S} {fresh : S} {obs : S → O} {same : I → I → Prop}
    (H : ∀ s i j x, same i j →
      (call s i >>= fun a => call a j >>= fun b => call b x) = (call s i >>= fun a => call a x)) :
    ExtraScanInvisible call fresh obs same := by
  intro h i j later hs hl
  cases later with
  | nil => exact absurd rfl hl
  | cons x later =>
    unfold outputs
    congr 1
    rw [runFB_append, runFB_append, runFB_append, runFB_append, bind_assoc, bind_assoc]
    congr 1
    funext s
    simp only [runFB_cons, runFB_nil, bind_assoc]
    have := H s i j x hs
    rw [← bind_assoc (x := call s i)] at this
    simp only [Res.bind_ok]
    have e := congrArg (fun r => r >>= fun c => runFB call c later) this
    simp only [bind_assoc] at e
    exact e

/-! ### Edges and latches -/

/-- **C103**, R_TRIG, F_TRIG, SR and RS: a repeated call changes no later output. -/
theorem C103_flanks_latches :
    ExtraScanInvisible R_TRIG.call Trigger.default (·.output) (fun i j => j = i) ∧
    ExtraScanInvisible F_TRIG.call Trigger.default (·.output) (fun i j => j = i) ∧
    ExtraScanInvisible SR.call SetResetParams.default (·.output) (fun i j => j = i) ∧
    ExtraScanInvisible RS.call SetResetParams.default (·.output) (fun i j => j = i) := by
  refine ⟨invisible_of_step ?_, invisible_of_step ?_, invisible_of_step ?_, invisible_of_step ?_⟩
  · rintro s i j x rfl
    simp [R_TRIG.call, R_TRIG, Signal.rising_edge]
  · rintro s i j x rfl
    simp [F_TRIG.call, F_TRIG, Signal.falling_edge]
  · rintro ⟨s, r, o⟩ ⟨i1, i2⟩ j ⟨x1, x2⟩ rfl
    revert s r o i1 i2 x1 x2; decide
  · rintro ⟨s, r, o⟩ ⟨i1, i2⟩ j ⟨x1, x2⟩ rfl
    revert s r o i1 i2 x1 x2; decide

/-- The repeated call matters when the edge is looked at once more: Q of the repeated call itself differs. -/
example : outputs R_TRIG.call Trigger.default (·.output) [false, true] = .ok true ∧
    outputs R_TRIG.call Trigger.default (·.output) [false, true, true] = .ok false ∧
    outputs R_TRIG.call Trigger.default (·.output) [false, true, true, false, true] = .ok true := by decide

/-! ### Counters -/

theorem ctu_run (t : IntTy) (p : Profile) (s : CTUParams) (cu : Bool) (pv : Int) :
    ctuCall t p s ⟨cu, false, pv⟩ =
      if (cu && (s.internal.current_value ^^ cu)) && decide (s.cv < t.hi) then
        (CTUParams.inc t p ⟨cu, false, pv, s.q, s.cv, ⟨cu⟩⟩ >>= fun s => .ok s.update_q)
      else .ok (CTUParams.update_q ⟨cu, false, pv, s.q, s.cv, ⟨cu⟩⟩) := by
  generalize hu : (cu && (s.internal.current_value ^^ cu)) = u
  unfold ctuCall ctu CTUParams.r_edge Signal.rising_edge
  simp only [hu]
  cases u <;> simp only [Bool.false_and, Bool.true_and, Bool.false_eq_true, if_false] <;> first | rfl | (split <;> rfl)

private theorem ctu_twice (t : IntTy) (p : Profile) (s a : CTUParams) (i : CTUIn) (h : ctuCall t p s i = .ok a) :
    ctuCall t p a i = .ok a := by
  obtain ⟨cu, r, pv⟩ := i
  cases r
  · have key : ∃ c, a = CTUParams.update_q ⟨cu, false, pv, s.q, c, ⟨cu⟩⟩ := by
      rw [ctu_run] at h
      split at h
      · unfold CTUParams.inc at h
        simp only [Res.bind_eq_ok] at h
        obtain ⟨y, ⟨c, _, hy⟩, h⟩ := h
        simp only [Res.pure_eq, Res.ok.injEq] at hy h
        exact ⟨c, by rw [← h, ← hy]⟩
      · exact ⟨s.cv, (Res.ok.inj h).symm⟩
    obtain ⟨c, rfl⟩ := key
    rw [ctu_run]
    simp [CTUParams.update_q]
  · simp [ctuCall, ctu, CTUParams.reset, CTUParams.update_q] at h ⊢
    rw [← h]

theorem ctd_run (t : IntTy) (p : Profile) (s : CTDParams) (cd : Bool) (pv : Int) :
    ctdCall t p s ⟨cd, false, pv⟩ =
      if (cd && (s.internal.current_value ^^ cd)) && decide (s.cv > t.lo) then
        (CTDParams.dec t p ⟨cd, false, pv, s.q, s.cv, ⟨cd⟩⟩ >>= fun s => .ok s.update_q)
      else .ok (CTDParams.update_q ⟨cd, false, pv, s.q, s.cv, ⟨cd⟩⟩) := by
  generalize hu : (cd && (s.internal.current_value ^^ cd)) = u
  unfold ctdCall ctd CTDParams.r_edge Signal.rising_edge
  simp only [hu]
  cases u <;> simp only [Bool.false_and, Bool.true_and, Bool.false_eq_true, if_false] <;> first | rfl | (split <;> rfl)

private theorem ctd_twice (t : IntTy) (p : Profile) (s a : CTDParams) (i : CTDIn) (h : ctdCall t p s i = .ok a) :
    ctdCall t p a i = .ok a := by
  obtain ⟨cd, ld, pv⟩ := i
  cases ld
  · have key : ∃ c, a = CTDParams.update_q ⟨cd, false, pv, s.q, c, ⟨cd⟩⟩ := by
      rw [ctd_run] at h
      split at h
      · unfold CTDParams.dec at h
        simp only [Res.bind_eq_ok] at h
        obtain ⟨y, ⟨c, _, hy⟩, h⟩ := h
        simp only [Res.pure_eq, Res.ok.injEq] at hy h
        exact ⟨c, by rw [← h, ← hy]⟩
      · exact ⟨s.cv, (Res.ok.inj h).symm⟩
    obtain ⟨c, rfl⟩ := key
    rw [ctd_run]
    simp [CTDParams.update_q] <;> exact decide_eq_decide.2 Iff.rfl
  · simp [ctdCall, ctd, CTDParams.load, CTDParams.update_q] at h ⊢
    rw [← h]

theorem ctud_run (t : IntTy) (p : Profile) (s : CTUDParams) (cu cd : Bool) (pv : Int) :
    ctudCall t p s ⟨cu, cd, false, false, pv⟩ =
      ((if !((cu && (s.internal_up.current_value ^^ cu)) && (cd && (s.internal_down.current_value ^^ cd))) then
        if (cu && (s.internal_up.current_value ^^ cu)) && decide (s.cv < t.hi) then
          CTUDParams.inc t p ⟨cu, cd, false, false, pv, s.qu, s.qd, s.cv, ⟨cu⟩, ⟨cd⟩⟩
        else if (cd && (s.internal_down.current_value ^^ cd)) && decide (s.cv > t.lo) then
          CTUDParams.dec t p ⟨cu, cd, false, false, pv, s.qu, s.qd, s.cv, ⟨cu⟩, ⟨cd⟩⟩
        else .ok ⟨cu, cd, false, false, pv, s.qu, s.qd, s.cv, ⟨cu⟩, ⟨cd⟩⟩
      else .ok ⟨cu, cd, false, false, pv, s.qu, s.qd, s.cv, ⟨cu⟩, ⟨cd⟩⟩) >>=
        fun s => .ok s.update_qu.update_qd) := by
  generalize hu : (cu && (s.internal_up.current_value ^^ cu)) = u
  generalize hd : (cd && (s.internal_down.current_value ^^ cd)) = d
  unfold ctudCall ctud CTUDParams.cu_r_edge CTUDParams.cd_r_edge Signal.rising_edge
  simp only [hu, hd]
  cases u <;> cases d <;> simp only [Bool.false_and, Bool.true_and, Bool.not_true, Bool.not_false, Bool.false_eq_true,
    if_false, if_true] <;> first | rfl | (split <;> rfl)

private theorem ctud_twice (t : IntTy) (p : Profile) (s a : CTUDParams) (i : CTUDIn) (h : ctudCall t p s i = .ok a) :
    ctudCall t p a i = .ok a := by
  obtain ⟨cu, cd, r, ld, pv⟩ := i
  cases r
  · cases ld
    · have key : ∃ c, a = CTUDParams.update_qd (CTUDParams.update_qu
          ⟨cu, cd, false, false, pv, s.qu, s.qd, c, ⟨cu⟩, ⟨cd⟩⟩) := by
        rw [ctud_run, Res.bind_eq_ok] at h
        obtain ⟨y, hy, h⟩ := h
        have h := (Res.ok.inj h).symm
        split at hy
        · split at hy
          · unfold CTUDParams.inc at hy
            rw [Res.bind_eq_ok] at hy
            obtain ⟨c, _, hy⟩ := hy
            exact ⟨c, by rw [h, ← Res.ok.inj hy]⟩
          · split at hy
            · unfold CTUDParams.dec at hy
              rw [Res.bind_eq_ok] at hy
              obtain ⟨c, _, hy⟩ := hy
              exact ⟨c, by rw [h, ← Res.ok.inj hy]⟩
            · exact ⟨s.cv, by rw [h, ← Res.ok.inj hy]⟩
        · exact ⟨s.cv, by rw [h, ← Res.ok.inj hy]⟩
      obtain ⟨c, rfl⟩ := key
      rw [ctud_run]
      simp [CTUDParams.update_qd, CTUDParams.update_qu]
    · simp [ctudCall, ctud, CTUDParams.load, CTUDParams.update_qu, CTUDParams.update_qd] at h ⊢
      rw [← h]
  · simp [ctudCall, ctud, CTUDParams.reset, CTUDParams.update_qu, CTUDParams.update_qd] at h ⊢
    rw [← h]

private theorem step_of_twice {S I : Type} {call : S → I → Res S} (H : ∀ s a i, call s i = .ok a → call a i = .ok a)
    (s : S) (i : I) (x : S → Res S) : (call s i >>= fun a => call a i >>= x) = (call s i >>= x) := by
  cases h : call s i with
  | ok a => rw [Res.bind_ok, Res.bind_ok, H s a i h, Res.bind_ok]
  | panic => rfl
  | ub => rfl

/-- **C103**, counters of every type and in every build: a repeated call changes no later output, and its own outputs are those
of the call it repeats (counting happens on edges only). -/
theorem C103_counters (t : IntTy) (p : Profile) :
    (ExtraScanInvisible (ctuCall t p) CTUParams.default (fun s => (s.q, s.cv)) (fun i j => j = i) ∧
      ∀ h i, runFB (ctuCall t p) CTUParams.default (h ++ [i, i]) = runFB (ctuCall t p) CTUParams.default (h ++ [i])) ∧
    (ExtraScanInvisible (ctdCall t p) CTDParams.default (fun s => (s.q, s.cv)) (fun i j => j = i) ∧
      ∀ h i, runFB (ctdCall t p) CTDParams.default (h ++ [i, i]) = runFB (ctdCall t p) CTDParams.default (h ++ [i])) ∧
    (ExtraScanInvisible (ctudCall t p) CTUDParams.default (fun s => (s.qu, s.qd, s.cv)) (fun i j => j = i) ∧
      ∀ h i, runFB (ctudCall t p) CTUDParams.default (h ++ [i, i]) = runFB (ctudCall t p) CTUDParams.default (h ++ [i])) := by
  refine ⟨⟨invisible_of_step ?_, ?_⟩, ⟨invisible_of_step ?_, ?_⟩, ⟨invisible_of_step ?_, ?_⟩⟩
  · rintro s i j x rfl
    exact step_of_twice (ctu_twice t p) s j _
  · intro h i
    rw [runFB_append, runFB_append]
    congr 1; funext s
    simp only [runFB_cons, runFB_nil]
    exact step_of_twice (ctu_twice t p) s i _
  · rintro s i j x rfl
    exact step_of_twice (ctd_twice t p) s j _
  · intro h i
    rw [runFB_append, runFB_append]
    congr 1; funext s
    simp only [runFB_cons, runFB_nil]
    exact step_of_twice (ctd_twice t p) s i _
  · rintro s i j x rfl
    exact step_of_twice (ctud_twice t p) s j _
  · intro h i
    rw [runFB_append, runFB_append]
    congr 1; funext s
    simp only [runFB_cons, runFB_nil]
    exact step_of_twice (ctud_twice t p) s i _

example : outputs (ctuCall .i16 .debug) CTUParams.default (fun s => (s.q, s.cv))
      [⟨true, false, 2⟩, ⟨false, false, 2⟩, ⟨true, false, 2⟩] = .ok (true, 2) ∧
    outputs (ctuCall .i16 .debug) CTUParams.default (fun s => (s.q, s.cv))
      [⟨true, false, 2⟩, ⟨true, false, 2⟩, ⟨false, false, 2⟩, ⟨true, false, 2⟩, ⟨true, false, 2⟩] = .ok (true, 2) := by
  decide

/-! ### Timers -/

/-- Q and ET. -/
def timerOutputs (s : TimerParams) : Bool × Int := (s.output, s.elapsed_time)

private theorem ton_extra (s : TimerParams) (i j x : TimerIn) (h : j.input = i.input) :
    (TON.call s i >>= fun a => TON.call a j >>= fun b => TON.call b x) = (TON.call s i >>= fun a => TON.call a x) := by
  obtain ⟨inp, pre, out, el, ⟨e⟩, st⟩ := s
  obtain ⟨xin, xpt, x1, x2⟩ := x
  obtain ⟨ji, jpt, j1, j2⟩ := j
  obtain ⟨ii, ipt, i1, i2⟩ := i
  simp only at h
  subst h
  cases ji <;> cases e <;> cases xin <;> cases st <;>
    simp [TON.call, TON, is_running, update_elapsed_time, get_run_time, is_in_preset_range, finish, input_rising_edge,
      Signal.rising_edge, Signal.set, start, reset] <;> exact decide_eq_decide.2 Iff.rfl

private theorem tof_extra (s : TimerParams) (i j x : TimerIn) (h : j.input = i.input) :
    (TOF.call s i >>= fun a => TOF.call a j >>= fun b => TOF.call b x) = (TOF.call s i >>= fun a => TOF.call a x) := by
  obtain ⟨inp, pre, out, el, ⟨e⟩, st⟩ := s
  obtain ⟨xin, xpt, x1, x2⟩ := x
  obtain ⟨ji, jpt, j1, j2⟩ := j
  obtain ⟨ii, ipt, i1, i2⟩ := i
  simp only at h
  subst h
  cases ji <;> cases e <;> cases xin <;> cases st <;>
    simp [TOF.call, TOF, is_running, update_elapsed_time, get_run_time, is_in_preset_range, finish, input_rising_edge,
      input_falling_edge, Signal.rising_edge, Signal.falling_edge, Signal.set, start, reset]

/-- **C103**, TON and TOF: an additional call with the same IN, whatever its PT and at whatever time, changes neither Q nor ET of
any later call. So the outputs do not depend on the cycle time of the program. -/
theorem C103_ton_tof :
    ExtraScanInvisible TON.call TimerParams.default timerOutputs (fun i j => j.input = i.input) ∧
    ExtraScanInvisible TOF.call TimerParams.default timerOutputs (fun i j => j.input = i.input) :=
  ⟨invisible_of_step ton_extra, invisible_of_step tof_extra⟩

example : outputs TON.call TimerParams.default timerOutputs [⟨true, 5, 10, 10⟩, ⟨true, 5, 12, 12⟩, ⟨true, 5, 16, 16⟩] = .ok (true, 5) ∧
    outputs TON.call TimerParams.default timerOutputs [⟨true, 5, 10, 10⟩, ⟨true, 5, 16, 16⟩] = .ok (true, 5) := by decide

/-- **C103** is false for TP: the call that finds the pulse over and IN fallen re-arms the timer; repeating it ends the program
(C14), so that the later rising edge never gets its pulse. -/
theorem C103_tp_refuted :
    ¬ ExtraScanInvisible TP.call TimerParams.default timerOutputs (fun i j => j.input = i.input) := by
  intro h
  have := h [⟨true, 5, 10, 10⟩] ⟨false, 5, 20, 20⟩ ⟨false, 5, 21, 21⟩ [⟨true, 5, 30, 30⟩] rfl (by decide)
  exact absurd this (by decide)

private theorem tp_running (s : TimerParams) (t0 : Nat) (hs : s.start_time = some t0) (j : TimerIn)
    (he : s.input_edge.current_value = j.input) :
    ∃ b, TP.call s j = .ok b ∧ b.start_time = some t0 ∧ b.input_edge = s.input_edge := by
  obtain ⟨inp, pre, out, el, ⟨e⟩, st⟩ := s
  obtain ⟨ji, jpt, j1, j2⟩ := j
  simp only at hs he
  subst hs he
  by_cases hr : ((j2 - t0 : Nat) : Int) ≤ IntTy.u64.wrap jpt <;>
    simp [TP.call, TP, is_running, update_elapsed_time, get_run_time, is_in_preset_range, finish, input_falling_edge,
      Signal.falling_edge, Signal.set, hr]

private theorem tp_cong (a b : TimerParams) (t0 : Nat) (ha : a.start_time = some t0) (hb : b.start_time = some t0)
    (he : a.input_edge = b.input_edge) (x : TimerIn) : TP.call a x = TP.call b x := by
  obtain ⟨inp, pre, out, el, ed, st⟩ := a
  obtain ⟨inp', pre', out', el', ed', st'⟩ := b
  simp only at ha hb he
  subst ha hb he
  obtain ⟨xi, xpt, x1, x2⟩ := x
  obtain ⟨e⟩ := ed
  by_cases hr : ((x2 - t0 : Nat) : Int) ≤ IntTy.u64.wrap xpt <;> cases xi <;> cases e <;>
    simp [TP.call, TP, is_running, update_elapsed_time, get_run_time, is_in_preset_range, finish, input_falling_edge,
      Signal.falling_edge, Signal.set, reset, hr]

private theorem tp_idle (s : TimerParams) (hs : s.start_time = none) (j : TimerIn)
    (he : s.input_edge.current_value = j.input) : TP.call s j = .panic := by
  obtain ⟨inp, pre, out, el, ⟨e⟩, st⟩ := s
  obtain ⟨ji, jpt, j1, j2⟩ := j
  simp only at hs he
  subst hs he
  cases e <;> simp [TP.call, TP, is_running, input_rising_edge, Signal.rising_edge]

private theorem tp_edge (s a : TimerParams) (i : TimerIn) (h : TP.call s i = .ok a) :
    a.input_edge.current_value = i.input := by
  obtain ⟨inp, pre, out, el, ⟨e⟩, st⟩ := s
  obtain ⟨xi, xpt, x1, x2⟩ := i
  cases st with
  | none =>
    cases xi <;> cases e <;>
      simp [TP.call, TP, is_running, finish, input_rising_edge, Signal.rising_edge, Signal.set, start] at h <;>
      (rw [← h])
  | some t0 =>
    by_cases hr : ((x2 - t0 : Nat) : Int) ≤ IntTy.u64.wrap xpt <;> cases xi <;> cases e <;>
      simp [TP.call, TP, is_running, update_elapsed_time, get_run_time, is_in_preset_range, finish, input_falling_edge,
        Signal.falling_edge, Signal.set, reset, hr] at h <;> (rw [← h])

private theorem tp_extra (s : TimerParams) (i j x : TimerIn) (h : j.input = i.input) :
    (TP.call s i >>= fun a => TP.call a j) = .panic ∨
    (TP.call s i >>= fun a => TP.call a j >>= fun b => TP.call b x) = (TP.call s i >>= fun a => TP.call a x) := by
  cases hc : TP.call s i with
  | panic => exact .inl rfl
  | ub => exact .inr rfl
  | ok a =>
    have he := tp_edge s a i hc
    rw [← h] at he
    simp only [Res.bind_ok]
    cases hs : a.start_time with
    | none => exact .inl (tp_idle a hs j he)
    | some t0 =>
      obtain ⟨b, hb, h1, h2⟩ := tp_running a t0 hs j he
      right
      rw [hb, Res.bind_ok]
      exact tp_cong b a t0 h1 hs h2 x

/-- **C103**, TP, the part that holds: an additional call with the same IN either ends the program (C14) or
changes no later output. -/
theorem C103_tp_partial (h : List TimerIn) (i j : TimerIn) (later : List TimerIn) (hs : j.input = i.input) (hl : later ≠ []) :
    runFB TP.call TimerParams.default (h ++ [i, j]) = .panic ∨
    outputs TP.call TimerParams.default timerOutputs (h ++ [i, j] ++ later) =
      outputs TP.call TimerParams.default timerOutputs (h ++ [i] ++ later) := by
  cases later with
  | nil => exact absurd rfl hl
  | cons x later =>
    unfold outputs
    rw [runFB_append, runFB_append, runFB_append (h₁ := h ++ [i])]
    simp only [runFB_append, bind_assoc, runFB_cons, runFB_nil]
    cases hr : runFB TP.call TimerParams.default h with
    | panic => exact .inl rfl
    | ub => exact .inr rfl
    | ok s =>
      simp only [Res.bind_ok]
      rcases tp_extra s i j x hs with hp | he
      · left
        cases hc : TP.call s i with
        | ok a =>
          rw [hc] at hp
          simp only [Res.bind_ok] at hp ⊢
          rw [hp]; rfl
        | panic => rfl
        | ub => rw [hc] at hp; cases hp
      · right
        have e := congrArg (fun r => r >>= fun c => runFB TP.call c later >>= fun s => Res.ok (timerOutputs s)) he
        simp only [bind_assoc] at e
        exact e

/-- An additional call in the middle of the pulse. -/
example : outputs TP.call TimerParams.default timerOutputs
      [⟨true, 50, 10, 10⟩, ⟨true, 50, 20, 20⟩, ⟨false, 50, 30, 30⟩] = .ok (true, 20) ∧
    outputs TP.call TimerParams.default timerOutputs [⟨true, 50, 10, 10⟩, ⟨false, 50, 30, 30⟩] = .ok (true, 20) := by decide

/-! ### C104: the origin of the clock -/

/-- The same call with a clock that shows `d` more. -/
def atLater (d : Nat) (i : TimerIn) : TimerIn := { i with t1 := i.t1 + d, t2 := i.t2 + d }

/-- Only differences of clock readings matter: all clock readings may be moved by the same amount. -/
def ClockOriginInvisible (call : TimerParams → TimerIn → Res TimerParams) : Prop :=
  ∀ (d : Nat) (h : List TimerIn), outputs call TimerParams.default timerOutputs (h.map (atLater d)) =
    outputs call TimerParams.default timerOutputs h

/-- The state with its start time moved. -/
private def moved (d : Nat) (s : TimerParams) : TimerParams := { s with start_time := s.start_time.map (· + d) }

private theorem invisible_of_moved {call : TimerParams → TimerIn → Res TimerParams}
    (H : ∀ d s i, call (moved d s) (atLater d i) = (call s i >>= fun s => .ok (moved d s))) :
    ClockOriginInvisible call := by
  intro d h
  have key : ∀ s, runFB call (moved d s) (h.map (atLater d)) = (runFB call s h >>= fun s => .ok (moved d s)) := by
    induction h with
    | nil => intro s; rfl
    | cons i h ih =>
      intro s
      rw [List.map_cons, runFB_cons, runFB_cons, H, bind_assoc, bind_assoc]
      congr 1
      funext s'
      exact ih s'
  unfold outputs
  have := key TimerParams.default
  rw [show moved d TimerParams.default = TimerParams.default from rfl] at this
  rw [this, bind_assoc]
  rfl

/-- **C104.** TON, TOF and TP depend on the clock only through the time that passes between calls. -/
theorem C104_clock_origin :
    ClockOriginInvisible TON.call ∧ ClockOriginInvisible TOF.call ∧ ClockOriginInvisible TP.call := by
  refine ⟨invisible_of_moved ?_, invisible_of_moved ?_, invisible_of_moved ?_⟩
  all_goals
    rintro d ⟨inp, pre, out, el, ⟨e⟩, st⟩ ⟨ii, ipt, i1, i2⟩
    cases st with
    | none =>
      cases ii <;> cases e <;>
        simp [TON.call, TON, TOF.call, TOF, TP.call, TP, moved, atLater, is_running,
          finish, input_rising_edge, input_falling_edge, Signal.rising_edge, Signal.falling_edge,
          Signal.set, start, reset]
    | some t0 =>
      by_cases hr : ((i2 - t0 : Nat) : Int) ≤ IntTy.u64.wrap ipt <;> cases ii <;> cases e <;>
        simp [TON.call, TON, TOF.call, TOF, TP.call, TP, moved, atLater, is_running, update_elapsed_time, get_run_time,
          is_in_preset_range, finish, input_rising_edge, input_falling_edge, Signal.rising_edge, Signal.falling_edge,
          Signal.set, start, reset, Nat.add_sub_add_right, hr]

example : outputs TOF.call TimerParams.default timerOutputs
      ([⟨true, 5, 10, 10⟩, ⟨false, 5, 11, 11⟩, ⟨false, 5, 17, 17⟩].map (atLater 1000000)) = .ok (false, 5) := by decide

end Verif
