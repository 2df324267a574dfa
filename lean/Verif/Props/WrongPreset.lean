import Verif.Model.Counters
import Verif.Model.Timers
/-
C179: the preset of a call matters to that call only.
-/
namespace Verif
open TimerParams

namespace Spec
/-- Two histories of calls are the same but for what `forget` removes from the inputs of a call. -/
def SameBut {I : Type} (forget : I → I) (h h' : List I) : Prop := h.map forget = h'.map forget

/-- A block forgets: after any two histories that are the same but for what `forget` removes, every further call leaves the same instance, with the same
outputs, or ends the program in the same way. -/
def Forgets {S I : Type} (call : S → I → Res S) (fresh : S) (forget : I → I) : Prop :=
  ∀ h h' i, SameBut forget h h' → runFB call fresh (h ++ [i]) = runFB call fresh (h' ++ [i])
end Spec
open Spec

/-- Results that are related, or the same failure. -/
private def RelRes {S : Type} (R : S → S → Prop) : Res S → Res S → Prop
  | .ok a, .ok b => R a b
  | .panic, .panic => True
  | .ub, .ub => True
  | _, _ => False

private theorem forgets_of {S I : Type} {call : S → I → Res S} {fresh : S} {forget : I → I} (R : S → S → Prop) (h0 : R fresh fresh)
    (step : ∀ s s' i i', R s s' → forget i = forget i' → RelRes R (call s i) (call s' i')) (last : ∀ s s' i, R s s' → call s i = call s' i) :
    Forgets call fresh forget := by
  have key : ∀ (h h' : List I) (i : I) (s s' : S), R s s' → h.map forget = h'.map forget →
      runFB call s (h ++ [i]) = runFB call s' (h' ++ [i]) := by
    intro h
    induction h with
    | nil =>
      intro h' i s s' hR e
      cases h' with
      | nil => simp only [List.nil_append, runFB_cons, last s s' i hR]
      | cons _ _ => cases e
    | cons x h ih =>
      intro h' i s s' hR e
      cases h' with
      | nil => cases e
      | cons y h' =>
        simp only [List.map_cons, List.cons.injEq] at e
        have := step s s' x y hR e.1
        simp only [List.cons_append, runFB_cons]
        cases hx : call s x <;> cases hy : call s' y <;> rw [hx, hy] at this <;> first | exact this.elim | skip
        · exact ih h' i _ _ this e.2
        all_goals rfl
  exact fun h h' i e => key h h' i fresh fresh h0 e

/-! ### Timers -/

private def TimerRel (s s' : TimerParams) : Prop :=
  s.input_edge = s'.input_edge ∧ s.start_time = s'.start_time ∧ (s.start_time = none → s.elapsed_time = s'.elapsed_time)

private theorem forget_pt {i i' : TimerIn} (h : ({ i with pt := 0 } : TimerIn) = { i' with pt := 0 }) :
    i.input = i'.input ∧ i.t1 = i'.t1 ∧ i.t2 = i'.t2 := by
  cases i; cases i'; simp at h; exact h

/-- **C179**, TON: PT of the calls before does not matter. -/
theorem C179_ton : Forgets TON.call TimerParams.default (fun i => { i with pt := 0 }) := by
  refine forgets_of TimerRel ⟨rfl, rfl, fun _ => rfl⟩ ?_ ?_
  · rintro ⟨a1, a2, a3, a4, a5, a6⟩ ⟨b1, b2, b3, b4, b5, b6⟩ i i' ⟨h1, h2, h3⟩ e
    obtain ⟨e1, e2, e3⟩ := forget_pt e
    cases i; cases i'
    simp only at h1 h2 h3 e1 e2 e3
    subst h1 h2 e1 e2 e3
    rename_i inp _ _ _ _
    cases inp <;> cases a6 <;> cases a5 <;> rename_i c <;> cases c <;>
      simp_all [TON.call, TON, is_running, RelRes, TimerRel, finish, reset, start, update_elapsed_time, get_run_time, input_rising_edge,
        Signal.rising_edge, Signal.set]
  · rintro ⟨a1, a2, a3, a4, a5, a6⟩ ⟨b1, b2, b3, b4, b5, b6⟩ i ⟨h1, h2, h3⟩
    simp only at h1 h2 h3
    subst h1 h2
    cases i
    rename_i inp _ _ _
    cases inp <;> cases a6 <;> cases a5 <;> rename_i c <;> cases c <;>
      simp_all [TON.call, TON, is_running, finish, reset, start, update_elapsed_time, get_run_time, input_rising_edge, Signal.rising_edge, Signal.set,
        is_in_preset_range] <;> congr

private def TofRel (s s' : TimerParams) : Prop :=
  s.input_edge = s'.input_edge ∧ s.start_time = s'.start_time ∧
    (s.start_time = none ∨ s.input_edge.current_value = true → s.elapsed_time = s'.elapsed_time)

/-- **C179**, TOF: PT of the calls before does not matter. -/
theorem C179_tof : Forgets TOF.call TimerParams.default (fun i => { i with pt := 0 }) := by
  refine forgets_of TofRel ⟨rfl, rfl, fun _ => rfl⟩ ?_ ?_
  · rintro ⟨a1, a2, a3, a4, a5, a6⟩ ⟨b1, b2, b3, b4, b5, b6⟩ i i' ⟨h1, h2, h3⟩ e
    obtain ⟨e1, e2, e3⟩ := forget_pt e
    cases i; cases i'
    simp only at h1 h2 h3 e1 e2 e3
    subst h1 h2 e1 e2 e3
    rename_i inp _ _ _ _
    cases inp <;> cases a6 <;> cases a5 <;> rename_i c <;> cases c <;>
      simp_all [TOF.call, TOF, is_running, RelRes, TofRel, finish, reset, start, update_elapsed_time, get_run_time, input_rising_edge,
        input_falling_edge, Signal.rising_edge, Signal.falling_edge, Signal.set]
  · rintro ⟨a1, a2, a3, a4, a5, a6⟩ ⟨b1, b2, b3, b4, b5, b6⟩ i ⟨h1, h2, h3⟩
    simp only at h1 h2 h3
    subst h1 h2
    cases i
    rename_i inp _ _ _
    cases inp <;> cases a6 <;> cases a5 <;> rename_i c <;> cases c <;>
      simp_all [TOF.call, TOF, is_running, finish, reset, start, update_elapsed_time, get_run_time, input_rising_edge, input_falling_edge,
        Signal.rising_edge, Signal.falling_edge, Signal.set, is_in_preset_range] <;> congr

/-- **C179**, TP, for which it is different: one call with a PT of 1 instead of 10 in the middle of a pulse ends the pulse, and the call after it, with the right PT
again, ends the program instead of continuing the pulse. -/
theorem C179_tp_lasting : ¬ Forgets TP.call TimerParams.default (fun i => { i with pt := 0 }) := by
  intro h
  have := h [⟨true, 10, 0, 0⟩, ⟨false, 1, 5, 5⟩] [⟨true, 10, 0, 0⟩, ⟨false, 10, 5, 5⟩] ⟨false, 10, 6, 6⟩ rfl
  revert this
  decide

/-! ### Counters -/

private theorem relRes_bind {A S : Type} {R : S → S → Prop} (a : Res A) (f g : A → S) (h : ∀ x, R (f x) (g x)) :
    RelRes R (a >>= fun x => .ok (f x)) (a >>= fun x => .ok (g x)) := by
  cases a
  · exact h _
  all_goals trivial

private theorem ctu_call (t : IntTy) (p : Profile) (s : CTUParams) (i : CTUIn) : ctuCall t p s i =
    (if i.r then .ok (0, s.internal)
      else if (s.internal.rising_edge i.cu).1 && decide (s.cv < t.hi) then
        t.arith p (s.cv + 1) >>= fun cv => .ok (cv, (s.internal.rising_edge i.cu).2)
      else .ok (s.cv, (s.internal.rising_edge i.cu).2) : Res (Int × Signal)) >>= fun x =>
    .ok ⟨i.cu, i.r, i.pv, decide (x.1 ≥ i.pv), x.1, x.2⟩ := by
  obtain ⟨cu, r, pv⟩ := i
  cases r
  · obtain ⟨_, _, _, _, cv, ⟨b⟩⟩ := s
    cases b <;> cases cu <;> by_cases hc : cv < t.hi <;>
      simp [hc, ctuCall, ctu, CTUParams.r_edge, CTUParams.inc, CTUParams.update_q, Signal.rising_edge] <;> cases t.arith p (cv + 1) <;> rfl
  · rfl

/-- **C179**, CTU: PV of the calls before does not matter. -/
theorem C179_ctu (t : IntTy) (p : Profile) : Forgets (ctuCall t p) CTUParams.default (fun i => { i with pv := 0 }) := by
  refine forgets_of (fun s s' => s.cv = s'.cv ∧ s.internal = s'.internal) ⟨rfl, rfl⟩ ?_ ?_
  · rintro s s' ⟨cu, r, pv⟩ ⟨cu', r', pv'⟩ ⟨h1, h2⟩ e
    simp only [CTUIn.mk.injEq, and_true] at e
    obtain ⟨rfl, rfl⟩ := e
    rw [ctu_call, ctu_call, h1, h2]
    exact relRes_bind _ _ _ fun _ => ⟨rfl, rfl⟩
  · rintro s s' i ⟨h1, h2⟩
    rw [ctu_call, ctu_call, h1, h2]

private theorem ctd_call (t : IntTy) (p : Profile) (s : CTDParams) (i : CTDIn) : ctdCall t p s i =
    (if i.ld then .ok (i.pv, s.internal)
      else if (s.internal.rising_edge i.cd).1 && decide (s.cv > t.lo) then
        t.arith p (s.cv - 1) >>= fun cv => .ok (cv, (s.internal.rising_edge i.cd).2)
      else .ok (s.cv, (s.internal.rising_edge i.cd).2) : Res (Int × Signal)) >>= fun x =>
    .ok ⟨i.cd, i.ld, i.pv, decide (x.1 ≤ 0), x.1, x.2⟩ := by
  obtain ⟨cd, ld, pv⟩ := i
  cases ld
  · obtain ⟨_, _, _, _, cv, ⟨b⟩⟩ := s
    cases b <;> cases cd <;> by_cases hc : t.lo < cv <;>
      simp [hc, ctdCall, ctd, CTDParams.r_edge, CTDParams.dec, CTDParams.update_q, Signal.rising_edge] <;> cases t.arith p (cv - 1) <;> rfl
  · rfl

/-- **C179**, CTD: PV of the calls before does not matter, except in calls that load it. -/
theorem C179_ctd (t : IntTy) (p : Profile) : Forgets (ctdCall t p) CTDParams.default (fun i => if i.ld then i else { i with pv := 0 }) := by
  refine forgets_of (fun s s' => s.cv = s'.cv ∧ s.internal = s'.internal) ⟨rfl, rfl⟩ ?_ ?_
  · rintro s s' ⟨cd, ld, pv⟩ ⟨cd', ld', pv'⟩ ⟨h1, h2⟩ e
    rw [ctd_call, ctd_call, h1, h2]
    cases ld <;> cases ld' <;> simp at e
    · subst e
      exact relRes_bind _ _ _ fun _ => ⟨rfl, rfl⟩
    · obtain ⟨rfl, rfl⟩ := e
      exact relRes_bind _ _ _ fun _ => ⟨rfl, rfl⟩
  · rintro s s' i ⟨h1, h2⟩
    rw [ctd_call, ctd_call, h1, h2]

private theorem ctud_call (t : IntTy) (p : Profile) (s : CTUDParams) (i : CTUDIn) : ctudCall t p s i =
    (if i.r then .ok (0, s.internal_up, s.internal_down)
      else if i.ld then .ok (i.pv, s.internal_up, s.internal_down)
      else (if !((s.internal_up.rising_edge i.cu).1 && (s.internal_down.rising_edge i.cd).1) then
          if (s.internal_up.rising_edge i.cu).1 && decide (s.cv < t.hi) then t.arith p (s.cv + 1)
          else if (s.internal_down.rising_edge i.cd).1 && decide (s.cv > t.lo) then t.arith p (s.cv - 1)
          else .ok s.cv
        else .ok s.cv) >>= fun cv => .ok (cv, (s.internal_up.rising_edge i.cu).2, (s.internal_down.rising_edge i.cd).2)
      : Res (Int × Signal × Signal)) >>= fun x =>
    .ok ⟨i.cu, i.cd, i.r, i.ld, i.pv, decide (x.1 ≥ i.pv), decide (x.1 ≤ 0), x.1, x.2.1, x.2.2⟩ := by
  obtain ⟨cu, cd, r, ld, pv⟩ := i
  cases r
  · cases ld
    · obtain ⟨_, _, _, _, _, _, _, cv, ⟨b⟩, ⟨c⟩⟩ := s
      cases b <;> cases c <;> cases cu <;> cases cd <;> by_cases hc : cv < t.hi <;> by_cases hd : t.lo < cv <;>
        simp [hc, hd, ctudCall, ctud, CTUDParams.cu_r_edge, CTUDParams.cd_r_edge, CTUDParams.inc, CTUDParams.dec, CTUDParams.update_qu,
          CTUDParams.update_qd, Signal.rising_edge] <;>
        first | (cases t.arith p (cv + 1) <;> rfl) | (cases t.arith p (cv - 1) <;> rfl)
    · rfl
  · rfl

/-- **C179**, CTUD: PV of the calls before does not matter, except in calls that load it (R goes before LD). -/
theorem C179_ctud (t : IntTy) (p : Profile) :
    Forgets (ctudCall t p) CTUDParams.default (fun i => if i.ld && !i.r then i else { i with pv := 0 }) := by
  refine forgets_of (fun s s' => s.cv = s'.cv ∧ s.internal_up = s'.internal_up ∧ s.internal_down = s'.internal_down) ⟨rfl, rfl, rfl⟩ ?_ ?_
  · rintro s s' ⟨cu, cd, r, ld, pv⟩ ⟨cu', cd', r', ld', pv'⟩ ⟨h1, h2, h3⟩ e
    rw [ctud_call, ctud_call, h1, h2, h3]
    cases r <;> cases r' <;> cases ld <;> cases ld' <;> simp at e
    · obtain ⟨rfl, rfl⟩ := e
      exact relRes_bind _ _ _ fun _ => ⟨rfl, rfl, rfl⟩
    · obtain ⟨rfl, rfl, rfl⟩ := e
      exact relRes_bind _ _ _ fun _ => ⟨rfl, rfl, rfl⟩
    all_goals exact ⟨rfl, rfl, rfl⟩
  · rintro s s' i ⟨h1, h2, h3⟩
    rw [ctud_call, ctud_call, h1, h2, h3]

/-- The restriction to calls that do not load is necessary: a wrong PV in a call with LD TRUE is what the counter counts down from. -/
theorem C179_load_lasting (p : Profile) : ¬ Forgets (ctdCall .i16 p) CTDParams.default (fun i => { i with pv := 0 }) := by
  intro h
  have := h [⟨false, true, 3⟩] [⟨false, true, 4⟩] ⟨false, false, 3⟩ rfl
  revert this
  cases p <;> decide

/-- A preset that is wrong for one call, while the input of TON is TRUE: Q is TRUE in that call and FALSE again in the next. -/
example : SameBut (fun i : TimerIn => { i with pt := 0 }) [⟨true, 100, 0, 0⟩, ⟨true, 1, 50, 50⟩] [⟨true, 100, 0, 0⟩, ⟨true, 100, 50, 50⟩] ∧
    (∃ s, runFB TON.call TimerParams.default [⟨true, 100, 0, 0⟩, ⟨true, 1, 50, 50⟩] = .ok s ∧ s.output = true) ∧
    (∃ s, runFB TON.call TimerParams.default [⟨true, 100, 0, 0⟩, ⟨true, 1, 50, 50⟩, ⟨true, 100, 60, 60⟩] = .ok s ∧ s.output = false) :=
  ⟨rfl, ⟨_, rfl, rfl⟩, ⟨_, rfl, rfl⟩⟩

/-- A preset of 0 in one call of CTU. -/
example : SameBut (fun i : CTUIn => { i with pv := 0 }) [⟨true, false, 2⟩, ⟨false, false, 0⟩] [⟨true, false, 2⟩, ⟨false, false, 2⟩] ∧
    runFB (ctuCall .i16 .debug) CTUParams.default ([⟨true, false, 2⟩, ⟨false, false, 0⟩] ++ [⟨true, false, 2⟩]) =
      .ok ⟨true, false, 2, true, 2, ⟨true⟩⟩ :=
  ⟨rfl, rfl⟩

end Verif
