import Verif.Model.PowerFailure
import Verif.Props.Scan
import Verif.Spec.FunctionBlocks
import Verif.Proofs.Ints
import Verif.Proofs.Lists
/-
C148: a power failure in the middle of a call of a function block whose memory is kept.

Model/PowerFailure.lean lists the memories a call passes through; a failure leaves one of them.
-/
namespace Verif
open Spec TimerParams

/-! ### Specification -/

/-- Two memories of an instance that no later call can tell apart: the outputs after any later calls are the same. -/
def SameFrom {S I O : Type} (call : S → I → Res S) (obs : S → O) (a b : S) : Prop :=
  ∀ later : List I, later ≠ [] → outputs call a obs later = outputs call b obs later

/-- A power failure during a call leaves the instance as if the call had not taken place, or as if it had taken place. `stores s i` are
the memories the call passes through. -/
def AllOrNothing {S I O : Type} (call : S → I → Res S) (stores : S → I → Res (List S)) (fresh : S) (obs : S → O) : Prop :=
  ∀ h s i s' ms m, runFB call fresh h = .ok s → call s i = .ok s' → stores s i = .ok ms → m ∈ ms →
    SameFrom call obs m s ∨ SameFrom call obs m s'

/-- A history of calls some of which are cut off by a power failure (`true`), with the memory left behind by each of those related by `cut`. -/
inductive WithFailures {S I : Type} (call : S → I → Res S) (cut : S → I → S → Prop) : S → List (I × Bool) → S → Prop
  | nil (s) : WithFailures call cut s [] s
  | complete {s i s' l r} : call s i = .ok s' → WithFailures call cut s' l r → WithFailures call cut s ((i, false) :: l) r
  | failure {s i m l r} : cut s i m → WithFailures call cut m l r → WithFailures call cut s ((i, true) :: l) r

/-- The number of power failures in a history. -/
def failures {I : Type} (l : List (I × Bool)) : Nat := (l.filter (·.2)).length

/-- Any one of the memories listed. -/
def OneOf {S I : Type} (stores : S → I → Res (List S)) (s : S) (i : I) (m : S) : Prop := ∃ ms, stores s i = .ok ms ∧ m ∈ ms

/-! ### The lists of memories end with the result of the call -/

theorem same_of_call {S I O : Type} {call : S → I → Res S} (obs : S → O) {a b : S} (h : ∀ j, call a j = call b j) : SameFrom call obs a b := by
  rintro (_ | ⟨j, later⟩) hl
  · exact absurd rfl hl
  · simp only [outputs, runFB_cons, h j]

private theorem same_refl {S I O : Type} (call : S → I → Res S) (obs : S → O) (a : S) : SameFrom call obs a a := fun _ _ => rfl

private theorem ctud_last {t : IntTy} {p : Profile} (s s' : CTUDParams) (h : ctud t p s = .ok s') : ∃ ms, ctudStores t p s = .ok (ms ++ [s']) := by
  unfold ctud at h
  unfold ctudStores
  cases hr : s.r
  · cases hl : s.ld
    · simp only [hr, hl] at h ⊢
      generalize s.cu_r_edge = x at *
      obtain ⟨up, s1⟩ := x
      dsimp only at h ⊢
      generalize s1.cd_r_edge = y at *
      obtain ⟨down, s2⟩ := y
      by_cases h1 : s2.cv < t.hi <;> by_cases h2 : s2.cv > t.lo <;> cases hu : s2.inc t p <;> cases hd : s2.dec t p <;> cases up <;> cases down <;>
        simp [h1, h2, hu, hd] at h ⊢ <;> subst h <;> first | exact ⟨[_, _, _, _], rfl⟩ | exact ⟨[_, _, _, _, _], rfl⟩
    · simp [hr, hl] at h ⊢
      subst h
      exact ⟨[_, _, _], rfl⟩
  · simp [hr] at h ⊢
    subst h
    exact ⟨[_, _, _], rfl⟩

private theorem tp_last (s s' : TimerParams) (t1 t2 : Nat) (h : TP s t1 t2 = .ok s') : ∃ ms, (.ok (TP.stores s t1 t2) : Res _) = .ok (ms ++ [s']) := by
  unfold TP at h
  unfold TP.stores
  cases hr : s.is_running
  · simp only [hr] at h ⊢
    generalize s.input_rising_edge = x at *
    obtain ⟨rise, s1⟩ := x
    cases rise
    · simp at h
    · cases Res.ok.inj h
      exact ⟨[_, _, _, _, _], rfl⟩
  · simp only [hr, if_true] at h ⊢
    cases hp : (s.update_elapsed_time t1).is_in_preset_range t2
    · simp only [hp] at h ⊢
      generalize (s.update_elapsed_time t1).input_falling_edge = x at *
      obtain ⟨fall, s1⟩ := x
      cases fall
      · cases Res.ok.inj h
        exact ⟨[_, _, _, _], rfl⟩
      · cases Res.ok.inj h
        exact ⟨[_, _, _, _, _, _], rfl⟩
    · simp only [hp, if_true] at h ⊢
      cases Res.ok.inj h
      exact ⟨[_, _, _], rfl⟩

private theorem ton_last (s s' : TimerParams) (t1 t2 : Nat) (h : TON s t1 t2 = .ok s') : ∃ ms, (.ok (TON.stores s t1 t2) : Res _) = .ok (ms ++ [s']) := by
  unfold TON at h
  unfold TON.stores
  cases hi : s.input
  · simp only [hi] at h ⊢
    cases Res.ok.inj h
    exact ⟨[_, _, _, _], rfl⟩
  · cases hr : s.is_running
    · simp only [hi, hr, if_true] at h ⊢
      generalize s.input_rising_edge = x at *
      obtain ⟨rise, s1⟩ := x
      cases rise
      · cases Res.ok.inj h
        exact ⟨[_, _, _], rfl⟩
      · cases Res.ok.inj h
        exact ⟨[_, _, _, _, _], rfl⟩
    · simp only [hi, hr, if_true] at h ⊢
      cases Res.ok.inj h
      exact ⟨[_, _, _], rfl⟩

private theorem tof_last (s s' : TimerParams) (t1 t2 : Nat) (h : TOF s t1 t2 = .ok s') : ∃ ms, (.ok (TOF.stores s t1 t2) : Res _) = .ok (ms ++ [s']) := by
  unfold TOF at h
  unfold TOF.stores
  cases hi : s.input
  · simp only [hi] at h ⊢
    generalize s.input_falling_edge = x at *
    obtain ⟨fall, s1⟩ := x
    cases fall
    · cases hr : s1.is_running
      · simp [hr] at h ⊢
        subst h
        exact ⟨[_, _, _], rfl⟩
      · simp [hr] at h ⊢
        subst h
        exact ⟨[_, _, _, _], rfl⟩
    · cases Res.ok.inj h
      exact ⟨[_, _, _, _, _], rfl⟩
  · simp only [hi, if_true] at h ⊢
    generalize s.input_rising_edge = x at *
    obtain ⟨rise, s1⟩ := x
    cases rise
    · cases Res.ok.inj h
      exact ⟨[_, _, _], rfl⟩
    · cases Res.ok.inj h
      exact ⟨[_, _, _, _, _], rfl⟩

/-- The list of memories of a call starts with the memory before it (with the new inputs) and ends with the memory after it. -/
theorem callStores_last {t : IntTy} (p : Profile) :
    (∀ s i s', R_TRIG.call s i = .ok s' → ∃ ms, R_TRIG.callStores s i = .ok (ms ++ [s'])) ∧
    (∀ s i s', F_TRIG.call s i = .ok s' → ∃ ms, F_TRIG.callStores s i = .ok (ms ++ [s'])) ∧
    (∀ s i s', SR.call s i = .ok s' → ∃ ms, SR.callStores s i = .ok (ms ++ [s'])) ∧
    (∀ s i s', RS.call s i = .ok s' → ∃ ms, RS.callStores s i = .ok (ms ++ [s'])) ∧
    (∀ s i s', ctuCall t p s i = .ok s' → ∃ ms, ctuCallStores t p s i = .ok (ms ++ [s'])) ∧
    (∀ s i s', ctdCall t p s i = .ok s' → ∃ ms, ctdCallStores t p s i = .ok (ms ++ [s'])) ∧
    (∀ s i s', ctudCall t p s i = .ok s' → ∃ ms, ctudCallStores t p s i = .ok (ms ++ [s'])) ∧
    (∀ s i s', TP.call s i = .ok s' → ∃ ms, TP.callStores s i = .ok (ms ++ [s'])) ∧
    (∀ s i s', TON.call s i = .ok s' → ∃ ms, TON.callStores s i = .ok (ms ++ [s'])) ∧
    (∀ s i s', TOF.call s i = .ok s' → ∃ ms, TOF.callStores s i = .ok (ms ++ [s'])) := by
  refine ⟨?_, ?_, ?_, ?_, ?_, ?_, ?_, ?_, ?_, ?_⟩ <;> intro s i s' h
  · cases Res.ok.inj h; exact ⟨[_, _], rfl⟩
  · cases Res.ok.inj h; exact ⟨[_, _], rfl⟩
  · cases Res.ok.inj h; exact ⟨[_], rfl⟩
  · cases Res.ok.inj h; exact ⟨[_], rfl⟩
  · obtain ⟨cu, r, pv⟩ := i
    obtain ⟨_, _, _, _, cv, ⟨e⟩⟩ := s
    by_cases hlt : cv < t.hi <;> cases ha : t.arith p (cv + 1) <;> cases r <;> cases cu <;> cases e <;>
      simp [ctuCall, ctu, ctuCallStores, ctuStores, CTUParams.r_edge, Signal.rising_edge, CTUParams.inc, CTUParams.reset, CTUParams.update_q, hlt, ha] at h ⊢ <;>
      subst h <;> first | exact ⟨[_, _], rfl⟩ | exact ⟨[_, _, _], rfl⟩
  · obtain ⟨cu, r, pv⟩ := i
    obtain ⟨_, _, _, _, cv, ⟨e⟩⟩ := s
    by_cases hlt : cv > t.lo <;> cases ha : t.arith p (cv - 1) <;> cases r <;> cases cu <;> cases e <;>
      simp [ctdCall, ctd, ctdCallStores, ctdStores, CTDParams.r_edge, Signal.rising_edge, CTDParams.dec, CTDParams.load, CTDParams.update_q, hlt, ha] at h ⊢ <;>
      subst h <;> first | exact ⟨[_, _], rfl⟩ | exact ⟨[_, _, _], rfl⟩
  · exact ctud_last _ _ h
  · exact tp_last _ _ _ _ h
  · exact ton_last _ _ _ _ h
  · exact tof_last _ _ _ _ h

/-! ### Edge detectors and latches -/

/-- **C148** for R_TRIG, F_TRIG, SR and RS: a power failure anywhere in a call leaves the instance as if the call had not taken place or as if it had
taken place. -/
theorem C148_flanks_latches :
    AllOrNothing R_TRIG.call R_TRIG.callStores Trigger.default (·.output) ∧
    AllOrNothing F_TRIG.call F_TRIG.callStores Trigger.default (·.output) ∧
    AllOrNothing SR.call SR.callStores SetResetParams.default (·.output) ∧
    AllOrNothing RS.call RS.callStores SetResetParams.default (·.output) := by
  refine ⟨?_, ?_, ?_, ?_⟩ <;> intro h s i s' ms m _ hc hs hm <;> cases Res.ok.inj hc <;> cases Res.ok.inj hs
  · simp only [R_TRIG.stores, List.mem_cons, List.not_mem_nil, or_false] at hm
    rcases hm with rfl | rfl | rfl
    · exact .inl (same_of_call _ fun _ => rfl)
    · exact .inr (same_of_call _ fun _ => rfl)
    · exact .inr (same_of_call _ fun _ => rfl)
  · simp only [F_TRIG.stores, List.mem_cons, List.not_mem_nil, or_false] at hm
    rcases hm with rfl | rfl | rfl
    · exact .inl (same_of_call _ fun _ => rfl)
    · exact .inr (same_of_call _ fun _ => rfl)
    · exact .inr (same_of_call _ fun _ => rfl)
  · simp only [SR.stores, List.mem_cons, List.not_mem_nil, or_false] at hm
    rcases hm with rfl | rfl
    · exact .inl (same_of_call _ fun _ => rfl)
    · exact .inr (same_of_call _ fun _ => rfl)
  · simp only [RS.stores, List.mem_cons, List.not_mem_nil, or_false] at hm
    rcases hm with rfl | rfl
    · exact .inl (same_of_call _ fun _ => rfl)
    · exact .inr (same_of_call _ fun _ => rfl)

/-- An R_TRIG call with CLK = TRUE passes through three memories: the next call with CLK = TRUE gives TRUE after the first, FALSE after the others. -/
example : ∃ a b c, R_TRIG.callStores Trigger.default true = .ok [a, b, c] ∧ outputs R_TRIG.call a (·.output) [true] = .ok true ∧
    outputs R_TRIG.call b (·.output) [true] = .ok false ∧ outputs R_TRIG.call c (·.output) [true] = .ok false := ⟨_, _, _, rfl, rfl, rfl, rfl⟩

/-! ### Where it is false -/

/-- CV and Q. -/
abbrev ctuOutputs (s : CTUParams) : Bool × Int := (s.q, s.cv)
/-- CV and Q. -/
abbrev ctdOutputs (s : CTDParams) : Bool × Int := (s.q, s.cv)
/-- CV, QU and QD. -/
abbrev ctudOutputs (s : CTUDParams) : Bool × Bool × Int := (s.qu, s.qd, s.cv)

private theorem not_all_or_nothing {S I O : Type} {call : S → I → Res S} {stores : S → I → Res (List S)} {fresh : S} {obs : S → O} {h : List I} {i : I}
    {s s' m : S} {ms : List S} {a b : List I} (ha : a ≠ []) (hb : b ≠ []) (hs : runFB call fresh h = .ok s) (hc : call s i = .ok s')
    (hm : stores s i = .ok ms) (hx : m ∈ ms) (h1 : outputs call m obs a ≠ outputs call s obs a) (h2 : outputs call m obs b ≠ outputs call s' obs b) :
    ¬ AllOrNothing call stores fresh obs := fun hall =>
  (hall h s i s' ms m hs hc hm hx).elim (fun h => h1 (h a ha)) (fun h => h2 (h b hb))

/-- **C148** is false for the counters and the timers.

* CTU, CTD, CTUD: the memory of the edge is stored before the count. After a failure between the two, the edge has been used and not counted.
* TON: after a failure behind the store of the edge memory, Q is TRUE at once with IN = TRUE, without the delay.
* TOF: after a failure at the same place, Q is FALSE at once, without the delay.
* TP: after a failure at the same place, the next call ends the program. -/
theorem C148_refuted (p : Profile) :
    (∀ t, CounterTy t → ¬ AllOrNothing (ctuCall t p) (ctuCallStores t p) CTUParams.default ctuOutputs) ∧
    (∀ t, CounterTy t → ¬ AllOrNothing (ctdCall t p) (ctdCallStores t p) CTDParams.default ctdOutputs) ∧
    (∀ t, CounterTy t → ¬ AllOrNothing (ctudCall t p) (ctudCallStores t p) CTUDParams.default ctudOutputs) ∧
    ¬ AllOrNothing TON.call TON.callStores TimerParams.default timerOutputs ∧
    ¬ AllOrNothing TOF.call TOF.callStores TimerParams.default timerOutputs ∧
    ¬ AllOrNothing TP.call TP.callStores TimerParams.default timerOutputs := by
  refine ⟨?_, ?_, ?_, ?_, ?_, ?_⟩
  · intro t ht
    refine not_all_or_nothing (h := []) (i := ⟨true, false, 5⟩) (m := ⟨true, false, 5, false, 0, ⟨true⟩⟩) (a := [⟨true, false, 5⟩]) (b := [⟨true, false, 5⟩])
      (s' := ⟨true, false, 5, false, 1, ⟨true⟩⟩)
      (ms := [⟨true, false, 5, false, 0, ⟨false⟩⟩, ⟨true, false, 5, false, 0, ⟨true⟩⟩, ⟨true, false, 5, false, 1, ⟨true⟩⟩, ⟨true, false, 5, false, 1, ⟨true⟩⟩])
      (by simp) (by simp) rfl ?_ ?_ (by simp) ?_ ?_ <;> rcases ht with rfl | rfl | rfl | rfl | rfl <;> cases p <;> decide
  · intro t ht
    refine not_all_or_nothing (h := [⟨false, true, 5⟩]) (i := ⟨true, false, 5⟩) (m := ⟨true, false, 5, false, 5, ⟨true⟩⟩) (a := [⟨true, false, 5⟩]) (b := [⟨true, false, 5⟩])
      (s := ⟨false, true, 5, false, 5, ⟨false⟩⟩) (s' := ⟨true, false, 5, false, 4, ⟨true⟩⟩)
      (ms := [⟨true, false, 5, false, 5, ⟨false⟩⟩, ⟨true, false, 5, false, 5, ⟨true⟩⟩, ⟨true, false, 5, false, 4, ⟨true⟩⟩, ⟨true, false, 5, false, 4, ⟨true⟩⟩])
      (by simp) (by simp) ?_ ?_ ?_ (by simp) ?_ ?_ <;> rcases ht with rfl | rfl | rfl | rfl | rfl <;> cases p <;> decide
  · intro t ht
    refine not_all_or_nothing (h := []) (i := ⟨true, false, false, false, 5⟩) (m := ⟨true, false, false, false, 5, false, false, 0, ⟨true⟩, ⟨false⟩⟩)
      (a := [⟨true, false, false, false, 5⟩]) (b := [⟨true, false, false, false, 5⟩])
      (s' := ⟨true, false, false, false, 5, false, false, 1, ⟨true⟩, ⟨false⟩⟩)
      (ms := [⟨true, false, false, false, 5, false, false, 0, ⟨false⟩, ⟨false⟩⟩, ⟨true, false, false, false, 5, false, false, 0, ⟨true⟩, ⟨false⟩⟩,
        ⟨true, false, false, false, 5, false, false, 0, ⟨true⟩, ⟨false⟩⟩, ⟨true, false, false, false, 5, false, false, 1, ⟨true⟩, ⟨false⟩⟩,
        ⟨true, false, false, false, 5, false, false, 1, ⟨true⟩, ⟨false⟩⟩, ⟨true, false, false, false, 5, false, false, 1, ⟨true⟩, ⟨false⟩⟩])
      (by simp) (by simp) rfl ?_ ?_ (by simp) ?_ ?_ <;> rcases ht with rfl | rfl | rfl | rfl | rfl <;> cases p <;> decide
  · exact not_all_or_nothing (h := []) (i := ⟨true, 5, 10, 10⟩) (m := ⟨true, 5, false, 0, ⟨true⟩, none⟩) (a := [⟨true, 5, 11, 11⟩]) (b := [⟨true, 5, 11, 11⟩])
      (s' := ⟨true, 5, false, 0, ⟨true⟩, some 10⟩) (ms := TON.stores ⟨true, 5, false, 0, ⟨false⟩, none⟩ 10 10)
      (by simp) (by simp) rfl rfl rfl (by decide) (by decide) (by decide)
  · exact not_all_or_nothing (h := [⟨true, 5, 5, 5⟩]) (i := ⟨false, 5, 10, 10⟩) (m := ⟨false, 5, true, 0, ⟨false⟩, none⟩) (a := [⟨false, 5, 11, 11⟩])
      (b := [⟨false, 5, 11, 11⟩]) (s := ⟨true, 5, true, 0, ⟨true⟩, none⟩)
      (s' := ⟨false, 5, true, 0, ⟨false⟩, some 10⟩) (ms := TOF.stores ⟨false, 5, true, 0, ⟨true⟩, none⟩ 10 10)
      (by simp) (by simp) rfl rfl rfl (by decide) (by decide) (by decide)
  · exact not_all_or_nothing (h := []) (i := ⟨true, 5, 10, 10⟩) (m := ⟨true, 5, false, 0, ⟨true⟩, none⟩) (a := [⟨true, 5, 11, 11⟩]) (b := [⟨true, 5, 11, 11⟩])
      (s' := ⟨true, 5, true, 0, ⟨true⟩, some 10⟩) (ms := TP.stores ⟨true, 5, false, 0, ⟨false⟩, none⟩ 10 10)
      (by simp) (by simp) rfl rfl rfl (by decide) (by decide) (by decide)

/-! ### What a failure leaves of a timer -/

/-- IN of the last call of a history, FALSE before the first one. -/
abbrev lastLevel (h : List TimerIn) : Bool := (h.getLast?.map (·.input)).getD false

/-- The delay is left out: as long as IN stays TRUE, Q is TRUE in every call; and with the first call with IN = FALSE the block is as a new one. -/
def OnAtOnce (m : TimerParams) : Prop :=
  ∀ on : List TimerIn, (∀ x ∈ on, x.input = true) →
    (on ≠ [] → ∃ et, outputs TON.call m timerOutputs on = .ok (true, et)) ∧
    ∀ off later, off.input = false →
      outputs TON.call m timerOutputs (on ++ off :: later) = outputs TON.call TimerParams.default timerOutputs (off :: later)

private theorem ton_off (m m' : TimerParams) (off : TimerIn) (h : off.input = false) : TON.call m off = TON.call m' off := by
  simp [TON.call, TON, h, reset, finish, Signal.set]

private theorem ton_on (m : TimerParams) (x : TimerIn) (h : x.input = true) (he : m.input_edge.current_value = true) (hs : m.start_time = none) :
    TON.call m x = .ok { m with input := true, preset_time := x.pt, output := true } := by
  obtain ⟨_, _, _, _, ⟨e⟩, _⟩ := m
  cases hs
  cases he
  simp [TON.call, TON, h, is_running, input_rising_edge, Signal.rising_edge, finish, Signal.set]

private theorem on_at_once {m : TimerParams} (he : m.input_edge.current_value = true) (hs : m.start_time = none) : OnAtOnce m := by
  intro on hon
  induction on generalizing m with
  | nil =>
    refine ⟨fun h => absurd rfl h, fun off later hoff => ?_⟩
    simp only [List.nil_append, outputs, runFB_cons, ton_off m TimerParams.default off hoff]
  | cons x on ih =>
    have hx := ton_on m x (hon x (by simp)) he hs
    have h' := ih (m := { m with input := true, preset_time := x.pt, output := true }) he hs (fun y hy => hon y (by simp [hy]))
    have e : ∀ l, outputs TON.call m timerOutputs (x :: l) =
        outputs TON.call { m with input := true, preset_time := x.pt, output := true } timerOutputs l := fun l => by
      simp only [outputs, runFB_cons, hx, Res.bind_ok]
    refine ⟨fun _ => ?_, fun off later hoff => ?_⟩
    · rw [e]
      cases on with
      | nil => exact ⟨m.elapsed_time, rfl⟩
      | cons y on => exact h'.1 (by simp)
    · rw [List.cons_append, e]
      exact h'.2 off later hoff

private theorem ton_reach (h : List TimerIn) : ∃ s, runFB TON.call TimerParams.default h = .ok s ∧ s.input_edge.current_value = lastLevel h ∧
    s.start_time.isSome = lastLevel h := by
  refine snoc_induction ?_ ?_ h
  · exact ⟨_, rfl, rfl, rfl⟩
  · rintro h ⟨inp, pt, t1, t2⟩ ⟨s, hs, he, hst⟩
    obtain ⟨_, _, _, _, ⟨e⟩, st⟩ := s
    simp only at he hst
    cases inp
    · exact ⟨_, by rw [runFB_snoc_ok hs]; rfl, by simp [finish, Signal.set, reset, lastLevel], by simp [finish, Signal.set, reset, lastLevel]⟩
    · cases st with
      | none =>
        have : e = false := by rw [he, ← hst]; rfl
        subst this
        exact ⟨_, by rw [runFB_snoc_ok hs]; rfl, by simp [lastLevel, start, finish, Signal.set], by simp [lastLevel, start, finish, Signal.set]⟩
      | some t0 => exact ⟨_, by rw [runFB_snoc_ok hs]; rfl, by simp [lastLevel, finish, Signal.set, update_elapsed_time, get_run_time],
          by simp [lastLevel, finish, Signal.set, update_elapsed_time, get_run_time]⟩

/-- Running: the memory of the edge and the elapsed time do not matter. -/
private theorem ton_same_running {a b : TimerParams} {t0 : Nat} (ha : a.start_time = some t0) (hb : b.start_time = some t0) :
    SameFrom TON.call timerOutputs a b := by
  obtain ⟨_, _, _, _, ⟨_⟩, _⟩ := a
  obtain ⟨_, _, _, _, ⟨_⟩, _⟩ := b
  cases ha
  cases hb
  refine same_of_call _ ?_
  rintro ⟨inp, pt, t1, t2⟩
  cases inp <;> rfl

/-- Idle: the elapsed time does not matter. -/
private theorem ton_same_idle {a b : TimerParams} (ha : a.start_time = none) (hb : b.start_time = none) (ha' : a.input_edge.current_value = false)
    (hb' : b.input_edge.current_value = false) : SameFrom TON.call timerOutputs a b := by
  obtain ⟨_, _, _, _, ⟨_⟩, _⟩ := a
  obtain ⟨_, _, _, _, ⟨_⟩, _⟩ := b
  cases ha
  cases hb
  cases ha'
  cases hb'
  refine same_of_call _ ?_
  rintro ⟨inp, pt, t1, t2⟩
  cases inp <;> simp [TON.call, TON, is_running, input_rising_edge, Signal.rising_edge, start, finish, reset, Signal.set]

/-- What is true of **C148** for TON: a failure leaves the instance as if the call had not taken place, as if it had taken place, or, and only when IN of the call
differs from IN of the call before, without its delay: Q is TRUE as long as IN stays TRUE. -/
theorem C148_ton_partial (h : List TimerIn) (i : TimerIn) (s s' m : TimerParams) (ms : List TimerParams) (hs : runFB TON.call TimerParams.default h = .ok s)
    (hc : TON.call s i = .ok s') (hms : TON.callStores s i = .ok ms) (hm : m ∈ ms) :
    SameFrom TON.call timerOutputs m s ∨ SameFrom TON.call timerOutputs m s' ∨ (i.input ≠ lastLevel h ∧ OnAtOnce m) := by
  obtain ⟨s0, hs0, he, hst⟩ := ton_reach h
  cases Res.ok.inj (hs0.symm.trans hs)
  cases Res.ok.inj hms
  obtain ⟨inp, pt, t1, t2⟩ := i
  obtain ⟨_, _, _, el, ⟨e⟩, st⟩ := s
  simp only at he hst
  rw [← he] at hst ⊢
  cases inp
  · cases Res.ok.inj hc
    simp only [TON.stores, resetStores, finishStores, List.mem_append, List.mem_cons, List.not_mem_nil, or_false, Bool.false_eq_true, if_false,
      or_assoc] at hm
    cases e
    · have hst' : st = none := by cases st <;> simp_all
      subst hst'
      rcases hm with rfl | rfl | rfl | rfl | rfl <;> exact .inl (ton_same_idle rfl rfl rfl rfl)
    · obtain ⟨t0, rfl⟩ : ∃ t0, st = some t0 := by cases st <;> simp_all
      rcases hm with rfl | rfl | rfl | rfl | rfl
      · exact .inl (ton_same_running rfl rfl)
      · exact .inr (.inr ⟨by simp, on_at_once rfl rfl⟩)
      · exact .inr (.inr ⟨by simp, on_at_once rfl rfl⟩)
      · exact .inr (.inr ⟨by simp, on_at_once rfl rfl⟩)
      · exact .inr (.inl (same_refl _ _ _))
  · cases st with
    | none =>
      cases hst
      cases Res.ok.inj hc
      have hm : m ∈ TON.stores _ _ _ := hm
      simp only [TON.stores, is_running, input_rising_edge, Signal.rising_edge, startStores, finishStores, List.mem_append, List.mem_cons,
        List.not_mem_nil, or_false, if_true, Option.isSome_none, Bool.false_eq_true, if_false, Bool.false_bne, Bool.and_self, or_assoc] at hm
      rcases hm with rfl | rfl | rfl | rfl | rfl | rfl
      · exact .inl (ton_same_idle rfl rfl rfl rfl)
      · exact .inr (.inr ⟨by simp, on_at_once rfl rfl⟩)
      all_goals exact .inr (.inl (ton_same_running rfl rfl))
    | some t0 =>
      cases hst
      cases Res.ok.inj hc
      simp only [TON.stores, is_running, finishStores, update_elapsed_time, get_run_time, Option.map_some, List.mem_append, List.mem_cons,
        List.not_mem_nil, or_false, if_true, Option.isSome_some, or_assoc] at hm
      rcases hm with rfl | rfl | rfl | rfl <;> exact .inl (ton_same_running rfl rfl)

/-- The third case is met: IN rises and the failure comes behind the store of the edge memory. Q is TRUE one nanosecond later; with the call complete it is FALSE. -/
example : ∃ m ms, TON.callStores TimerParams.default ⟨true, 5, 10, 10⟩ = .ok ms ∧ m ∈ ms ∧
    outputs TON.call m timerOutputs [⟨true, 5, 11, 11⟩] = .ok (true, 0) ∧
    outputs TON.call TimerParams.default timerOutputs [⟨true, 5, 10, 10⟩, ⟨true, 5, 11, 11⟩] = .ok (false, 1) :=
  ⟨⟨true, 5, false, 0, ⟨true⟩, none⟩, _, rfl, by decide, by decide, by decide⟩

/-- It is also met when IN falls: the failure comes behind the store of the start time, and IN is TRUE again in the next call. -/
example : ∃ s m ms, runFB TON.call TimerParams.default [⟨true, 50, 10, 10⟩] = .ok s ∧ TON.callStores s ⟨false, 50, 12, 12⟩ = .ok ms ∧ m ∈ ms ∧
    outputs TON.call m timerOutputs [⟨true, 50, 13, 13⟩] = .ok (true, 0) :=
  ⟨⟨true, 50, false, 0, ⟨true⟩, some 10⟩, ⟨false, 50, false, 0, ⟨true⟩, none⟩, _, by decide, rfl, by decide, by decide⟩

/-- Q is that of a completed call, and ET is too from the next call with IN = FALSE on: only until then ET may show the time of the delay before. -/
def EtLate (m s' : TimerParams) : Prop :=
  ∀ on : List TimerIn, (∀ x ∈ on, x.input = true) →
    (on ≠ [] → (∃ et, outputs TOF.call m timerOutputs on = .ok (true, et)) ∧ outputs TOF.call s' timerOutputs on = .ok (true, 0)) ∧
    ∀ off later, off.input = false →
      outputs TOF.call m timerOutputs (on ++ off :: later) = outputs TOF.call s' timerOutputs (on ++ off :: later)

private theorem tof_off {a b : TimerParams} (off : TimerIn) (h : off.input = false) (ha : a.input_edge.current_value = true)
    (hb : b.input_edge.current_value = true) : TOF.call a off = TOF.call b off := by
  obtain ⟨_, _, _, _, ⟨_⟩, _⟩ := a
  obtain ⟨_, _, _, _, ⟨_⟩, _⟩ := b
  cases ha
  cases hb
  simp [TOF.call, TOF, h, input_falling_edge, Signal.falling_edge, start, finish, Signal.set]

private theorem tof_on (m : TimerParams) (x : TimerIn) (h : x.input = true) (he : m.input_edge.current_value = true) :
    TOF.call m x = .ok { m with input := true, preset_time := x.pt, output := true } := by
  obtain ⟨_, _, _, _, ⟨_⟩, _⟩ := m
  cases he
  simp [TOF.call, TOF, h, input_rising_edge, Signal.rising_edge, finish, Signal.set]

private theorem et_late {m s' : TimerParams} (hm : m.input_edge.current_value = true) (hs : s'.input_edge.current_value = true)
    (h0 : s'.elapsed_time = 0) : EtLate m s' := by
  intro on hon
  induction on generalizing m s' with
  | nil =>
    refine ⟨fun h => absurd rfl h, fun off later hoff => ?_⟩
    simp only [List.nil_append, outputs, runFB_cons, tof_off off hoff hm hs]
  | cons x on ih =>
    have e : ∀ (a : TimerParams), a.input_edge.current_value = true → ∀ l, outputs TOF.call a timerOutputs (x :: l) =
        outputs TOF.call { a with input := true, preset_time := x.pt, output := true } timerOutputs l := fun a ha l => by
      simp only [outputs, runFB_cons, tof_on a x (hon x (by simp)) ha, Res.bind_ok]
    have h' := ih (m := { m with input := true, preset_time := x.pt, output := true })
      (s' := { s' with input := true, preset_time := x.pt, output := true }) hm hs h0 (fun y hy => hon y (by simp [hy]))
    refine ⟨fun _ => ?_, fun off later hoff => ?_⟩
    · rw [e m hm, e s' hs]
      cases on with
      | nil => exact ⟨⟨m.elapsed_time, rfl⟩, by simp [outputs, timerOutputs, h0]⟩
      | cons y on => exact h'.1 (by simp)
    · rw [List.cons_append, e m hm, e s' hs]
      exact h'.2 off later hoff

private theorem tof_reach (h : List TimerIn) : ∃ s, runFB TOF.call TimerParams.default h = .ok s ∧ s.input_edge.current_value = lastLevel h ∧
    (lastLevel h = true → s.start_time = none) ∧ (s.start_time = none → s.elapsed_time = 0) := by
  refine snoc_induction ?_ ?_ h
  · exact ⟨_, rfl, rfl, fun _ => rfl, fun _ => rfl⟩
  · rintro h ⟨inp, pt, t1, t2⟩ ⟨s, hs, he, hst, hel⟩
    obtain ⟨_, _, _, _, ⟨e⟩, st⟩ := s
    simp only at he hst hel
    rw [← he] at hst
    cases inp
    · cases e
      · cases st with
        | none => exact ⟨_, by rw [runFB_snoc_ok hs]; rfl, by simp [lastLevel, finish, Signal.set], by simp [lastLevel], fun _ => hel rfl⟩
        | some t0 => exact ⟨_, by rw [runFB_snoc_ok hs]; rfl, by simp [lastLevel, finish, Signal.set, update_elapsed_time, get_run_time],
            by simp [lastLevel], fun h => by cases h⟩
      · exact ⟨_, by rw [runFB_snoc_ok hs]; rfl, by simp [lastLevel, start, finish, Signal.set], by simp [lastLevel], fun h => by cases h⟩
    · cases e
      · exact ⟨_, by rw [runFB_snoc_ok hs]; rfl, by simp [lastLevel, reset, finish, Signal.set], fun _ => rfl, fun _ => rfl⟩
      · exact ⟨_, by rw [runFB_snoc_ok hs]; rfl, by simp [lastLevel, finish, Signal.set], fun _ => hst rfl, fun h => hel h⟩

/-- With the memory of the edge FALSE the elapsed time matters only when the timer is not running. -/
private theorem tof_same {a b : TimerParams} (ha : a.input_edge.current_value = false) (hb : b.input_edge.current_value = false)
    (hs : a.start_time = b.start_time) (he : a.start_time = none → a.elapsed_time = b.elapsed_time) : SameFrom TOF.call timerOutputs a b := by
  obtain ⟨_, _, _, el, ⟨_⟩, st⟩ := a
  obtain ⟨_, _, _, el', ⟨_⟩, st'⟩ := b
  cases ha
  cases hb
  cases hs
  refine same_of_call _ ?_
  rintro ⟨inp, pt, t1, t2⟩
  cases inp
  · cases st with
    | none => cases he rfl; rfl
    | some t0 => rfl
  · rfl

private theorem tof_same_all {a b : TimerParams} (ha : a.input_edge = b.input_edge) (hs : a.start_time = b.start_time)
    (he : a.elapsed_time = b.elapsed_time) : SameFrom TOF.call timerOutputs a b := by
  obtain ⟨_, _, _, el, ⟨e⟩, st⟩ := a
  obtain ⟨_, _, _, el', ⟨_⟩, st'⟩ := b
  cases ha
  cases hs
  cases he
  refine same_of_call _ ?_
  rintro ⟨inp, pt, t1, t2⟩
  cases inp <;> cases e <;> cases st <;> rfl

/-- What is true of **C148** for TOF: a failure leaves the instance as if the call had not taken place; or as if it had taken place; or, only when IN rises,
with a late reset of ET; or, only when IN falls, as a new instance: Q is FALSE in the next call, without the delay. -/
theorem C148_tof_partial (h : List TimerIn) (i : TimerIn) (s s' m : TimerParams) (ms : List TimerParams) (hs : runFB TOF.call TimerParams.default h = .ok s)
    (hc : TOF.call s i = .ok s') (hms : TOF.callStores s i = .ok ms) (hm : m ∈ ms) :
    SameFrom TOF.call timerOutputs m s ∨ SameFrom TOF.call timerOutputs m s' ∨
    (lastLevel h = false ∧ i.input = true ∧ EtLate m s') ∨
    (lastLevel h = true ∧ i.input = false ∧ SameFrom TOF.call timerOutputs m TimerParams.default) := by
  obtain ⟨s0, hs0, he, hst, hel⟩ := tof_reach h
  cases Res.ok.inj (hs0.symm.trans hs)
  cases Res.ok.inj hms
  obtain ⟨inp, pt, t1, t2⟩ := i
  obtain ⟨_, _, _, el, ⟨e⟩, st⟩ := s
  simp only at he hst hel
  rw [← he] at hst ⊢
  cases inp <;> cases e
  · cases st with
    | none =>
      cases Res.ok.inj hc
      have hm : m ∈ [_, _, _, _] := hm
      simp only [List.mem_cons, List.not_mem_nil, or_false] at hm
      rcases hm with rfl | rfl | rfl | rfl <;> exact .inl (tof_same rfl rfl rfl fun _ => rfl)
    | some t0 =>
      cases Res.ok.inj hc
      have hm : m ∈ [_, _, _, _, _] := hm
      simp only [List.mem_cons, List.not_mem_nil, or_false] at hm
      rcases hm with rfl | rfl | rfl | rfl | rfl <;> exact .inl (tof_same rfl rfl rfl fun h => by cases h)
  · cases hst rfl
    cases hel rfl
    cases Res.ok.inj hc
    have hm : m ∈ [_, _, _, _, _, _] := hm
    simp only [List.mem_cons, List.not_mem_nil, or_false] at hm
    rcases hm with rfl | rfl | rfl | rfl | rfl | rfl
    · exact .inl (same_of_call _ fun _ => rfl)
    · exact .inr (.inr (.inr ⟨rfl, rfl, tof_same rfl rfl rfl fun _ => rfl⟩))
    all_goals exact .inr (.inl (tof_same rfl rfl rfl fun h => by cases h))
  · cases Res.ok.inj hc
    have hm : m ∈ [_, _, _, _, _, _] := hm
    simp only [List.mem_cons, List.not_mem_nil, or_false] at hm
    rcases hm with rfl | rfl | rfl | rfl | rfl | rfl
    · exact .inl (same_of_call _ fun _ => rfl)
    · exact .inr (.inr (.inl ⟨rfl, rfl, et_late rfl rfl rfl⟩))
    · exact .inr (.inr (.inl ⟨rfl, rfl, et_late rfl rfl rfl⟩))
    all_goals exact .inr (.inl (tof_same_all rfl rfl rfl))
  · cases Res.ok.inj hc
    have hm : m ∈ [_, _, _, _] := hm
    simp only [List.mem_cons, List.not_mem_nil, or_false] at hm
    rcases hm with rfl | rfl | rfl | rfl <;> exact .inl (tof_same_all rfl rfl rfl)

/-- Both further cases are met. IN falls and the failure comes behind the store of the edge memory: Q is FALSE one nanosecond later. -/
example : ∃ s m ms, runFB TOF.call TimerParams.default [⟨true, 5, 5, 5⟩] = .ok s ∧ TOF.callStores s ⟨false, 5, 10, 10⟩ = .ok ms ∧ m ∈ ms ∧
    outputs TOF.call m timerOutputs [⟨false, 5, 11, 11⟩] = .ok (false, 0) ∧
    outputs TOF.call TimerParams.default timerOutputs [⟨true, 5, 5, 5⟩, ⟨false, 5, 10, 10⟩, ⟨false, 5, 11, 11⟩] = .ok (true, 1) :=
  ⟨⟨true, 5, true, 0, ⟨true⟩, none⟩, ⟨false, 5, true, 0, ⟨false⟩, none⟩, _, rfl, rfl, by decide, by decide, by decide⟩

/-- IN rises during a delay and the failure comes behind the store of the edge memory: ET still shows 2. -/
example : ∃ s m ms, runFB TOF.call TimerParams.default [⟨true, 5, 5, 5⟩, ⟨false, 5, 10, 10⟩, ⟨false, 5, 12, 12⟩] = .ok s ∧
    TOF.callStores s ⟨true, 5, 13, 13⟩ = .ok ms ∧ m ∈ ms ∧ outputs TOF.call m timerOutputs [⟨true, 5, 14, 14⟩] = .ok (true, 2) :=
  ⟨⟨false, 5, true, 2, ⟨false⟩, some 10⟩, ⟨true, 5, true, 2, ⟨true⟩, some 10⟩, _, by decide, rfl, by decide, by decide⟩

private theorem tp_run (a c : Bool) (b el : Int) (e : Bool) (t0 : Nat) (inp : Bool) (pt : Int) (t1 t2 : Nat) :
    TP.call ⟨a, b, c, el, ⟨e⟩, some t0⟩ ⟨inp, pt, t1, t2⟩ =
      if ((t2 - t0 : Nat) : Int) ≤ IntTy.u64.wrap pt then .ok ⟨inp, pt, true, min pt (IntTy.i64.wrap (t1 - t0 : Nat)), ⟨inp⟩, some t0⟩
      else if !inp && e then .ok ⟨inp, pt, false, 0, ⟨inp⟩, none⟩
      else .ok ⟨inp, pt, false, min pt (IntTy.i64.wrap (t1 - t0 : Nat)), ⟨inp⟩, some t0⟩ := by
  by_cases h : ((t2 - t0 : Nat) : Int) ≤ IntTy.u64.wrap pt <;> cases inp <;> cases e <;>
    simp [TP.call, TP, is_running, update_elapsed_time, get_run_time, is_in_preset_range, finish, Signal.set, h, input_falling_edge, Signal.falling_edge, reset]

private theorem tp_reach (h : List TimerIn) (s : TimerParams) (hs : runFB TP.call TimerParams.default h = .ok s) :
    s.input_edge.current_value = lastLevel h ∧ (s.start_time = none → s.input_edge.current_value = false) := by
  revert s
  refine snoc_induction ?_ ?_ h
  · intro s hs
    cases Res.ok.inj hs
    exact ⟨rfl, fun _ => rfl⟩
  · rintro h ⟨inp, pt, t1, t2⟩ ih s hs
    rw [runFB_append] at hs
    obtain ⟨s0, h0, hs⟩ := Res.bind_eq_ok.1 hs
    obtain ⟨he, hi⟩ := ih s0 h0
    rw [runFB_cons] at hs
    obtain ⟨s1, h1, hs⟩ := Res.bind_eq_ok.1 hs
    cases Res.ok.inj hs
    obtain ⟨_, _, _, el, ⟨e⟩, st⟩ := s0
    simp only [lastLevel, List.getLast?_append, List.getLast?_singleton, Option.some_or, Option.map_some, Option.getD_some]
    cases st with
    | none =>
      cases hi rfl
      cases inp
      · exact absurd (show (Res.panic : Res TimerParams) = _ from h1) (by simp)
      · cases Res.ok.inj h1
        exact ⟨rfl, fun h => by cases h⟩
    | some t0 =>
      rw [tp_run] at h1
      by_cases hr : ((t2 - t0 : Nat) : Int) ≤ IntTy.u64.wrap pt
      · rw [if_pos hr] at h1
        cases Res.ok.inj h1
        exact ⟨rfl, fun h => by cases h⟩
      · rw [if_neg hr] at h1
        cases inp <;> cases e <;> cases Res.ok.inj h1 <;> exact ⟨rfl, fun h => by first | rfl | cases h⟩

/-- Running: the elapsed time does not matter. -/
private theorem tp_same_running {a b : TimerParams} {t0 : Nat} (ha : a.start_time = some t0) (hb : b.start_time = some t0)
    (he : a.input_edge = b.input_edge) : SameFrom TP.call timerOutputs a b := by
  obtain ⟨_, _, _, _, ⟨e⟩, _⟩ := a
  obtain ⟨_, _, _, _, ⟨_⟩, _⟩ := b
  cases ha
  cases hb
  cases he
  refine same_of_call _ ?_
  rintro ⟨inp, pt, t1, t2⟩
  rw [tp_run, tp_run]

/-- Idle: the elapsed time does not matter. -/
private theorem tp_same_idle {a b : TimerParams} (ha : a.start_time = none) (hb : b.start_time = none)
    (he : a.input_edge = b.input_edge) : SameFrom TP.call timerOutputs a b := by
  obtain ⟨_, _, _, _, ⟨e⟩, _⟩ := a
  obtain ⟨_, _, _, _, ⟨_⟩, _⟩ := b
  cases ha
  cases hb
  cases he
  refine same_of_call _ ?_
  rintro ⟨inp, pt, t1, t2⟩
  cases inp <;> cases e <;> rfl

/-- The pulse was over, and the fall of IN that would have made the instance ready for the next pulse has been used for nothing: everything is as if the call had come before the
end of the pulse. -/
def FallUsed (s : TimerParams) (i : TimerIn) (m : TimerParams) : Prop :=
  ∃ now s1, TP.call s { i with t1 := now, t2 := now } = .ok s1 ∧ s1.output = true ∧ SameFrom TP.call timerOutputs m s1

/-- What is true of **C148** for TP. The call before, the call, or: when the call starts a pulse, the next call ends the program whatever its inputs are; when the call
finds the pulse over and IN fallen, the fall is used for nothing. -/
theorem C148_tp_partial (h : List TimerIn) (i : TimerIn) (s s' m : TimerParams) (ms : List TimerParams) (hs : runFB TP.call TimerParams.default h = .ok s)
    (hc : TP.call s i = .ok s') (hms : TP.callStores s i = .ok ms) (hm : m ∈ ms) :
    SameFrom TP.call timerOutputs m s ∨ SameFrom TP.call timerOutputs m s' ∨
    (i.input = true ∧ s'.output = true ∧ ∀ j, TP.call m j = .panic) ∨
    (i.input = false ∧ lastLevel h = true ∧ s'.output = false ∧ FallUsed s i m) := by
  obtain ⟨he, hst⟩ := tp_reach h s hs
  cases Res.ok.inj hms
  obtain ⟨inp, pt, t1, t2⟩ := i
  obtain ⟨_, _, _, el, ⟨e⟩, st⟩ := s
  simp only at he hst
  rw [← he]
  cases st with
  | none =>
    cases hst rfl
    cases inp
    · exact absurd (show (Res.panic : Res TimerParams) = _ from hc) (by simp)
    · cases Res.ok.inj hc
      have hm : m ∈ [_, _, _, _, _, _] := hm
      simp only [List.mem_cons, List.not_mem_nil, or_false] at hm
      rcases hm with rfl | rfl | rfl | rfl | rfl | rfl
      · exact .inl (tp_same_idle rfl rfl rfl)
      · refine .inr (.inr (.inl ⟨rfl, rfl, ?_⟩))
        rintro ⟨inp, pt, t1, t2⟩
        cases inp <;> rfl
      all_goals exact .inr (.inl (tp_same_running rfl rfl rfl))
  | some t0 =>
    have hw : (0 : Int) ≤ IntTy.u64.wrap pt := (IntTy.wrap_inRange IntTy.u64 (by decide) pt).1
    rw [tp_run] at hc
    unfold TP.stores at hm
    by_cases hr : ((t2 - t0 : Nat) : Int) ≤ IntTy.u64.wrap pt
    · rw [if_pos hr] at hc
      simp only [is_running, Option.isSome_some, if_true, update_elapsed_time, get_run_time, Option.map_some, is_in_preset_range, hr, decide_true] at hm
      cases Res.ok.inj hc
      have hm : m ∈ [_, _, _, _] := hm
      simp only [List.mem_cons, List.not_mem_nil, or_false] at hm
      rcases hm with rfl | rfl | rfl | rfl
      · exact .inl (tp_same_running rfl rfl rfl)
      · exact .inl (tp_same_running rfl rfl rfl)
      · exact .inl (tp_same_running rfl rfl rfl)
      · exact .inr (.inl (tp_same_running rfl rfl rfl))
    · rw [if_neg hr] at hc
      simp only [is_running, Option.isSome_some, if_true, update_elapsed_time, get_run_time, Option.map_some, is_in_preset_range, hr, decide_false] at hm
      cases inp <;> cases e
      · cases Res.ok.inj hc
        have hm : m ∈ [_, _, _, _, _] := hm
        simp only [List.mem_cons, List.not_mem_nil, or_false] at hm
        rcases hm with rfl | rfl | rfl | rfl | rfl <;> exact .inl (tp_same_running rfl rfl rfl)
      · cases Res.ok.inj hc
        have hm : m ∈ [_, _, _, _, _, _, _] := hm
        simp only [List.mem_cons, List.not_mem_nil, or_false] at hm
        rcases hm with rfl | rfl | rfl | rfl | rfl | rfl | rfl
        · exact .inl (tp_same_running rfl rfl rfl)
        · exact .inl (tp_same_running rfl rfl rfl)
        · refine .inr (.inr (.inr ⟨rfl, rfl, rfl, t0, ⟨false, pt, true, min pt (IntTy.i64.wrap 0), ⟨false⟩, some t0⟩, ?_, rfl, ?_⟩))
          · rw [tp_run, if_pos (by simpa using hw)]
            simp
          · exact tp_same_running rfl rfl rfl
        all_goals exact .inr (.inl (tp_same_idle rfl rfl rfl))
      · cases Res.ok.inj hc
        have hm : m ∈ [_, _, _, _, _] := hm
        simp only [List.mem_cons, List.not_mem_nil, or_false] at hm
        rcases hm with rfl | rfl | rfl | rfl | rfl
        · exact .inl (tp_same_running rfl rfl rfl)
        · exact .inl (tp_same_running rfl rfl rfl)
        all_goals exact .inr (.inl (tp_same_running rfl rfl rfl))
      · cases Res.ok.inj hc
        have hm : m ∈ [_, _, _, _, _] := hm
        simp only [List.mem_cons, List.not_mem_nil, or_false] at hm
        rcases hm with rfl | rfl | rfl | rfl | rfl <;> exact .inl (tp_same_running rfl rfl rfl)

/-- The two further cases are met. The start of the first pulse is cut off behind the store of the edge memory: the next call ends the program. -/
example : ∃ m ms, TP.callStores TimerParams.default ⟨true, 5, 10, 10⟩ = .ok ms ∧ m ∈ ms ∧
    outputs TP.call m timerOutputs [⟨true, 5, 11, 11⟩] = .panic ∧
    outputs TP.call TimerParams.default timerOutputs [⟨true, 5, 10, 10⟩, ⟨true, 5, 11, 11⟩] = .ok (true, 1) :=
  ⟨⟨true, 5, false, 0, ⟨true⟩, none⟩, _, rfl, by decide, by decide, by decide⟩

/-- The call that finds the pulse over and IN fallen is cut off behind the store of the edge memory: the next rise of IN gives no pulse. -/
example : ∃ s m ms, runFB TP.call TimerParams.default [⟨true, 5, 10, 10⟩, ⟨true, 5, 16, 16⟩] = .ok s ∧ TP.callStores s ⟨false, 5, 18, 18⟩ = .ok ms ∧
    m ∈ ms ∧ outputs TP.call m timerOutputs [⟨true, 5, 20, 20⟩] = .ok (false, 5) ∧
    outputs TP.call TimerParams.default timerOutputs [⟨true, 5, 10, 10⟩, ⟨true, 5, 16, 16⟩, ⟨false, 5, 18, 18⟩, ⟨true, 5, 20, 20⟩] = .ok (true, 0) :=
  ⟨⟨true, 5, false, 5, ⟨true⟩, some 10⟩, ⟨false, 5, false, 5, ⟨false⟩, some 10⟩, _, by decide, rfl, by decide, by decide, by decide⟩

end Verif
