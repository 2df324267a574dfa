import Verif.Props.PowerFailure
/-
C149: a task that interrupts a call of a function block and reads the outputs of the instance.

Model/PowerFailure.lean lists the memories a call passes through, `callStores`; the other task is started at one of them and only reads.
-/
namespace Verif
open Spec TimerParams

/-! ### Specification -/

/-- In the course of a call an output is changed once: up to some moment it has the value from before the call, from then on the value from after it. -/
def ChangesOnce {S V : Type} (out : S → V) (moments : List S) (before after : S) : Prop :=
  ∃ a b, moments = a ++ b ∧ (∀ m ∈ a, out m = out before) ∧ (∀ m ∈ b, out m = out after)

/-- In the course of a call two outputs are changed once each, `x` not later than `y`: for some time both have the values from before the call, then
`x` has the new value and `y` the old one, then both have the new values. -/
def ChangesInOrder {S V W : Type} (x : S → V) (y : S → W) (moments : List S) (before after : S) : Prop :=
  ∃ a b c, moments = a ++ b ++ c ∧ (∀ m ∈ a, x m = x before ∧ y m = y before) ∧ (∀ m ∈ b, x m = x after ∧ y m = y before) ∧
    (∀ m ∈ c, x m = x after ∧ y m = y after)

/-- A claim about every call of an instance that returns, after any history of calls: about the memories the call passes through, the memory before it and
the memory after it. -/
def InEveryCall {S I : Type} (call : S → I → Res S) (stores : S → I → Res (List S)) (fresh : S) (claim : List S → S → S → Prop) : Prop :=
  ∀ h s i s' moments, runFB call fresh h = .ok s → call s i = .ok s' → stores s i = .ok moments → claim moments s s'

/-- At every moment of a call the outputs, read together, are those from before the call or those from after it. -/
def BeforeOrAfter {S O : Type} (obs : S → O) (moments : List S) (before after : S) : Prop :=
  ∀ m ∈ moments, obs m = obs before ∨ obs m = obs after

/-- A task that reads `y` at some moment of a call and `x` at the same moment or later: if `y` has already changed, it finds the new `x`. -/
def NewWithNew {S V W : Type} (x : S → V) (y : S → W) (moments : List S) (before after : S) : Prop :=
  ∀ a m b m', moments = a ++ m :: b → m' ∈ m :: b → y m ≠ y before → x m' = x after

/-- The call of TP that ends the block's cycle (the pulse is over and IN falls) changes ET twice: to a value not above PT, then to 0. Q is changed last. -/
def EtByWayOf (moments : List TimerParams) (before after : TimerParams) : Prop :=
  after.elapsed_time = 0 ∧ after.output = false ∧ after.input = false ∧
  ∃ v a b c d, v ≤ after.preset_time ∧ moments = a ++ b ++ c ++ d ∧
    (∀ m ∈ a, m.elapsed_time = before.elapsed_time ∧ m.output = before.output) ∧ (∀ m ∈ b, m.elapsed_time = v ∧ m.output = before.output) ∧
    (∀ m ∈ c, m.elapsed_time = 0 ∧ m.output = before.output) ∧ (∀ m ∈ d, m.elapsed_time = 0 ∧ m.output = after.output)

private theorem in_suffix {S : Type} {good : S → Prop} {l r u v : List S} {m m' : S} (h : l ++ r = u ++ m :: v) (hl : ∀ z ∈ l, good z) (hm : ¬ good m)
    (hm' : m' ∈ m :: v) : m' ∈ r := by
  rcases List.append_eq_append_iff.mp h with ⟨w, rfl, hw⟩ | ⟨w, hw, hr⟩
  · exact hw ▸ List.mem_append_right _ hm'
  · cases w with
    | nil => rw [List.nil_append] at hr; exact hr ▸ hm'
    | cons z w =>
      cases hr
      exact absurd (hl m (by rw [hw]; simp)) hm

private theorem later_of_order {S V W : Type} {x : S → V} {y : S → W} {l : List S} {s s' : S} : ChangesInOrder x y l s s' → NewWithNew x y l s s' := by
  rintro ⟨a, b, c, rfl, ha, hb, hc⟩ u m v m' h hm' hy
  exact (hc m' (in_suffix (good := fun z => y z = y s) h (fun z hz => (List.mem_append.mp hz).elim (fun h => (ha z h).2) (fun h => (hb z h).2)) hy hm')).1

/-! ### The order of the stores -/

private theorem once_x {S V W : Type} {x : S → V} {y : S → W} {l : List S} {s s' : S} : ChangesInOrder x y l s s' → ChangesOnce x l s s' := by
  rintro ⟨a, b, c, rfl, ha, hb, hc⟩
  refine ⟨a, b ++ c, by simp, fun m h => (ha m h).1, fun m h => ?_⟩
  rcases List.mem_append.mp h with h | h
  · exact (hb m h).1
  · exact (hc m h).1

private theorem once_y {S V W : Type} {x : S → V} {y : S → W} {l : List S} {s s' : S} : ChangesInOrder x y l s s' → ChangesOnce y l s s' := by
  rintro ⟨a, b, c, rfl, ha, hb, hc⟩
  refine ⟨a ++ b, c, by simp, fun m h => ?_, fun m h => (hc m h).2⟩
  rcases List.mem_append.mp h with h | h
  · exact (ha m h).2
  · exact (hb m h).2

/-- The elements of a list written out have the values stated. -/
local macro "fields" : tactic => `(tactic| ((repeat refine List.forall_mem_cons.2 ⟨⟨rfl, rfl⟩, ?_⟩); exact fun _ h => absurd h List.not_mem_nil))

private theorem ctu_order (t : IntTy) (p : Profile) (fresh : CTUParams) :
    InEveryCall (ctuCall t p) (ctuCallStores t p) fresh (ChangesInOrder (·.cv) (·.q)) := by
  rintro _ ⟨_, _, _, q, cv, e⟩ ⟨cu, r, pv⟩ s' ms - h hm
  unfold ctuCall ctu at h
  unfold ctuCallStores ctuStores at hm
  cases r
  · unfold CTUParams.r_edge CTUParams.inc at h hm
    simp only [Bool.false_eq_true, if_false] at h hm
    generalize e.rising_edge cu = x at *
    obtain ⟨_ | _, e'⟩ := x
    · cases Res.ok.inj h
      cases Res.ok.inj hm
      exact ⟨[_, _], [], [_], rfl, by fields, by fields, by fields⟩
    · by_cases hlt : cv < t.hi
      · simp only [hlt, decide_true, Bool.and_self, if_true] at h hm
        cases ha : t.arith p (cv + 1) with
        | ok c =>
          rw [ha] at h hm
          cases Res.ok.inj h
          cases Res.ok.inj hm
          exact ⟨[_, _], [_], [_], rfl, by fields, by fields, by fields⟩
        | panic => rw [ha] at h; exact absurd h (by simp)
        | ub => rw [ha] at h; exact absurd h (by simp)
      · simp only [hlt, decide_false, Bool.and_false, Bool.false_eq_true, if_false] at h hm
        cases Res.ok.inj h
        cases Res.ok.inj hm
        exact ⟨[_, _], [], [_], rfl, by fields, by fields, by fields⟩
  · cases Res.ok.inj h
    cases Res.ok.inj hm
    exact ⟨[_], [_], [_], rfl, by fields, by fields, by fields⟩

private theorem ctd_order (t : IntTy) (p : Profile) (fresh : CTDParams) :
    InEveryCall (ctdCall t p) (ctdCallStores t p) fresh (ChangesInOrder (·.cv) (·.q)) := by
  rintro _ ⟨_, _, _, q, cv, e⟩ ⟨cu, r, pv⟩ s' ms - h hm
  unfold ctdCall ctd at h
  unfold ctdCallStores ctdStores at hm
  cases r
  · unfold CTDParams.r_edge CTDParams.dec at h hm
    simp only [Bool.false_eq_true, if_false] at h hm
    generalize e.rising_edge cu = x at *
    obtain ⟨_ | _, e'⟩ := x
    · cases Res.ok.inj h
      cases Res.ok.inj hm
      exact ⟨[_, _], [], [_], rfl, by fields, by fields, by fields⟩
    · by_cases hlt : cv > t.lo
      · simp only [hlt, decide_true, Bool.and_self, if_true] at h hm
        cases ha : t.arith p (cv - 1) with
        | ok c =>
          rw [ha] at h hm
          cases Res.ok.inj h
          cases Res.ok.inj hm
          exact ⟨[_, _], [_], [_], rfl, by fields, by fields, by fields⟩
        | panic => rw [ha] at h; exact absurd h (by simp)
        | ub => rw [ha] at h; exact absurd h (by simp)
      · simp only [hlt, decide_false, Bool.and_false, Bool.false_eq_true, if_false] at h hm
        cases Res.ok.inj h
        cases Res.ok.inj hm
        exact ⟨[_, _], [], [_], rfl, by fields, by fields, by fields⟩
  · cases Res.ok.inj h
    cases Res.ok.inj hm
    exact ⟨[_], [_], [_], rfl, by fields, by fields, by fields⟩


private theorem ctud_order (t : IntTy) (p : Profile) (fresh : CTUDParams) : InEveryCall (ctudCall t p) (ctudCallStores t p) fresh
    (fun l s s' => ChangesInOrder (·.cv) (·.qu) l s s' ∧ ChangesInOrder (·.qu) (·.qd) l s s' ∧ ChangesInOrder (·.cv) (·.qd) l s s') := by
  rintro _ ⟨_, _, _, _, _, q, q', cv, e, e'⟩ ⟨cu, cd, r, ld, pv⟩ s' ms - h hm
  unfold ctudCall ctud at h
  unfold ctudCallStores ctudStores at hm
  cases r
  · cases ld
    · unfold CTUDParams.cu_r_edge CTUDParams.cd_r_edge at h hm
      simp only [Bool.false_eq_true, if_false] at h hm
      generalize e.rising_edge cu = x at *
      obtain ⟨up, e1⟩ := x
      simp only at h hm
      generalize e'.rising_edge cd = y at *
      obtain ⟨down, e2⟩ := y
      by_cases hu : (!(up && down) && up && decide (cv < t.hi)) = true
      · have hu' : up = true ∧ down = false ∧ cv < t.hi := by revert hu; cases up <;> cases down <;> simp
        obtain ⟨rfl, rfl, hlt⟩ := hu'
        simp only [hlt, decide_true, Bool.and_self, Bool.and_false, Bool.not_false, if_true] at h hm
        unfold CTUDParams.inc at h hm
        cases ha : t.arith p (cv + 1) with
        | ok c =>
          simp only [ha] at h hm
          cases Res.ok.inj h
          cases Res.ok.inj hm
          exact ⟨⟨[_, _, _], [_], [_, _], rfl, by fields, by fields, by fields⟩, ⟨[_, _, _, _], [_], [_], rfl, by fields, by fields, by fields⟩,
              ⟨[_, _, _], [_, _], [_], rfl, by fields, by fields, by fields⟩⟩
        | panic => simp only [ha] at h; exact absurd h (by simp)
        | ub => simp only [ha] at h; exact absurd h (by simp)
      · rw [if_neg hu] at hm
        by_cases hd : (!(up && down) && down && decide (cv > t.lo)) = true
        · rw [if_pos hd] at hm
          have hd' : up = false ∧ down = true ∧ cv > t.lo := by revert hd; cases up <;> cases down <;> simp
          obtain ⟨rfl, rfl, hgt⟩ := hd'
          simp only [hgt, decide_true, Bool.and_self, Bool.false_and, Bool.not_false, Bool.false_eq_true, if_true, if_false] at h
          unfold CTUDParams.dec at h hm
          cases ha : t.arith p (cv - 1) with
          | ok c =>
            simp only [ha] at h hm
            cases Res.ok.inj h
            cases Res.ok.inj hm
            exact ⟨⟨[_, _, _], [_], [_, _], rfl, by fields, by fields, by fields⟩, ⟨[_, _, _, _], [_], [_], rfl, by fields, by fields, by fields⟩,
              ⟨[_, _, _], [_, _], [_], rfl, by fields, by fields, by fields⟩⟩
          | panic => simp only [ha] at h; exact absurd h (by simp)
          | ub => simp only [ha] at h; exact absurd h (by simp)
        · rw [if_neg hd] at hm
          cases Res.ok.inj hm
          have h' : (Res.ok (CTUDParams.update_qd (CTUDParams.update_qu ⟨cu, cd, false, false, pv, q, q', cv, e1, e2⟩)) : Res CTUDParams) = .ok s' := by
            rw [← h]
            revert hu hd
            cases up <;> cases down <;> by_cases h1 : cv < t.hi <;> by_cases h2 : cv > t.lo <;> simp [h1, h2]
          cases Res.ok.inj h'
          exact ⟨⟨[_, _, _], [], [_, _], rfl, by fields, by fields, by fields⟩, ⟨[_, _, _], [_], [_], rfl, by fields, by fields, by fields⟩,
            ⟨[_, _, _], [_], [_], rfl, by fields, by fields, by fields⟩⟩
    · cases Res.ok.inj h
      cases Res.ok.inj hm
      exact ⟨⟨[_], [_], [_, _], rfl, by fields, by fields, by fields⟩, ⟨[_, _], [_], [_], rfl, by fields, by fields, by fields⟩,
        ⟨[_], [_, _], [_], rfl, by fields, by fields, by fields⟩⟩
  · cases Res.ok.inj h
    cases Res.ok.inj hm
    exact ⟨⟨[_], [_], [_, _], rfl, by fields, by fields, by fields⟩, ⟨[_, _], [_], [_], rfl, by fields, by fields, by fields⟩,
        ⟨[_], [_, _], [_], rfl, by fields, by fields, by fields⟩⟩

/-- ET and then Q. -/
private abbrev EtThenQ : List TimerParams → TimerParams → TimerParams → Prop := ChangesInOrder (·.elapsed_time) (·.output)

private theorem ton_order (fresh : TimerParams) : InEveryCall TON.call TON.callStores fresh EtThenQ := by
  rintro _ ⟨_, _, q, et, e, st⟩ ⟨inp, pt, t1, t2⟩ s' ms - h hm
  cases Res.ok.inj hm
  cases inp
  · cases Res.ok.inj h
    exact ⟨[_, _], [_], [_, _], rfl, by fields, by fields, by fields⟩
  · cases st with
    | none =>
      unfold TON.call TON input_rising_edge at h
      unfold TON.stores input_rising_edge
      simp only [is_running, Option.isSome_none, Bool.false_eq_true, if_true, if_false] at h ⊢
      generalize e.rising_edge true = x at *
      obtain ⟨_ | _, e'⟩ := x
      · cases Res.ok.inj h
        exact ⟨[_, _], [], [_, _], rfl, by fields, by fields, by fields⟩
      · cases Res.ok.inj h
        exact ⟨[_, _, _], [_], [_, _], rfl, by fields, by fields, by fields⟩
    | some t0 =>
      cases Res.ok.inj h
      exact ⟨[_], [_], [_, _], rfl, by fields, by fields, by fields⟩

private theorem tof_order (fresh : TimerParams) : InEveryCall TOF.call TOF.callStores fresh EtThenQ := by
  rintro _ ⟨_, _, q, et, e, st⟩ ⟨inp, pt, t1, t2⟩ s' ms - h hm
  cases Res.ok.inj hm
  cases inp
  · unfold TOF.call TOF input_falling_edge at h
    unfold TOF.stores input_falling_edge
    simp only [Bool.false_eq_true, if_false] at h ⊢
    generalize e.falling_edge false = x at *
    obtain ⟨_ | _, e'⟩ := x
    · cases st with
      | none =>
        cases Res.ok.inj h
        exact ⟨[_, _], [], [_, _], rfl, by fields, by fields, by fields⟩
      | some t0 =>
        cases Res.ok.inj h
        exact ⟨[_, _], [_], [_, _], rfl, by fields, by fields, by fields⟩
    · cases Res.ok.inj h
      exact ⟨[_, _, _], [_], [_, _], rfl, by fields, by fields, by fields⟩
  · unfold TOF.call TOF input_rising_edge at h
    unfold TOF.stores input_rising_edge
    simp only [if_true] at h ⊢
    generalize e.rising_edge true = x at *
    obtain ⟨_ | _, e'⟩ := x
    · cases Res.ok.inj h
      exact ⟨[_, _], [], [_, _], rfl, by fields, by fields, by fields⟩
    · cases Res.ok.inj h
      exact ⟨[_, _, _], [_], [_, _], rfl, by fields, by fields, by fields⟩

private theorem tp_order (fresh : TimerParams) : InEveryCall TP.call TP.callStores fresh
    (fun l s s' => EtThenQ l s s' ∨ EtByWayOf l s s') := by
  rintro _ ⟨_, _, q, et, e, st⟩ ⟨inp, pt, t1, t2⟩ s' ms - h hm
  cases Res.ok.inj hm
  cases st with
  | none =>
    unfold TP.call TP input_rising_edge at h
    unfold TP.stores input_rising_edge
    simp only [is_running, Option.isSome_none, Bool.false_eq_true, if_false] at h ⊢
    generalize e.rising_edge inp = x at *
    obtain ⟨_ | _, e'⟩ := x
    · exact absurd h (by simp)
    · cases Res.ok.inj h
      exact .inl ⟨[_, _, _], [_], [_, _], rfl, by fields, by fields, by fields⟩
  | some t0 =>
    have hrun : ∀ x : TimerParams, x.start_time = some t0 → (x.update_elapsed_time t1).input = x.input ∧ (x.update_elapsed_time t1).output = x.output ∧
        (x.update_elapsed_time t1).preset_time = x.preset_time ∧ (x.update_elapsed_time t1).elapsed_time ≤ x.preset_time := by
      rintro ⟨_, _, _, _, _, _⟩ rfl
      exact ⟨rfl, rfl, rfl, Int.min_le_left ..⟩
    replace hrun := hrun ⟨inp, pt, q, et, e, some t0⟩ rfl
    unfold TP.call TP at h
    unfold TP.stores
    simp only [is_running, Option.isSome_some, if_true] at h ⊢
    generalize update_elapsed_time _ t1 = s1 at *
    obtain ⟨inp1, pt1, q1, et1, e1, st1⟩ := s1
    simp only at hrun
    obtain ⟨rfl, rfl, rfl, hle⟩ := hrun
    cases hp : is_in_preset_range ⟨inp1, pt1, q1, et1, e1, st1⟩ t2
    · simp only [hp, input_falling_edge, Bool.false_eq_true, if_false] at h ⊢
      obtain ⟨_ | _⟩ := e1 <;> cases inp1 <;> cases Res.ok.inj h
      · exact .inl ⟨[_], [_, _], [_, _], rfl, by fields, by fields, by fields⟩
      · exact .inl ⟨[_], [_, _], [_, _], rfl, by fields, by fields, by fields⟩
      · exact .inr ⟨rfl, rfl, rfl, _, [_], [_, _, _], [_], [_, _], hle, rfl, by fields, by fields, by fields, by fields⟩
      · exact .inl ⟨[_], [_, _], [_, _], rfl, by fields, by fields, by fields⟩
    · simp only [hp, if_true] at h ⊢
      cases Res.ok.inj h
      exact .inl ⟨[_], [_], [_, _], rfl, by fields, by fields, by fields⟩

/-! ### Blocks with one output -/

/-- **C149** for R_TRIG, F_TRIG, SR and RS: at every moment of a call the output is the one from before the call or the one from after it, and it does not
change back. -/
theorem C149_one_output (fresh : Trigger) (fresh' : SetResetParams) :
    InEveryCall R_TRIG.call R_TRIG.callStores fresh (ChangesOnce (·.output)) ∧
    InEveryCall F_TRIG.call F_TRIG.callStores fresh (ChangesOnce (·.output)) ∧
    InEveryCall SR.call SR.callStores fresh' (ChangesOnce (·.output)) ∧
    InEveryCall RS.call RS.callStores fresh' (ChangesOnce (·.output)) := by
  refine ⟨?_, ?_, ?_, ?_⟩ <;> intro _ s i s' ms _ h hm <;> cases Res.ok.inj h <;> cases Res.ok.inj hm
  · exact ⟨[_, _], [_], rfl, by simp, List.forall_mem_singleton.2 rfl⟩
  · exact ⟨[_, _], [_], rfl, by simp, List.forall_mem_singleton.2 rfl⟩
  · exact ⟨[_], [_], rfl, by simp, List.forall_mem_singleton.2 rfl⟩
  · exact ⟨[_], [_], rfl, by simp, List.forall_mem_singleton.2 rfl⟩

/-- `ChangesOnce` says that nothing else than the outputs from before and after can be seen. -/
theorem beforeOrAfter_of_changesOnce {S V : Type} {out : S → V} {moments : List S} {s s' : S} :
    ChangesOnce out moments s s' → BeforeOrAfter out moments s s' := by
  rintro ⟨a, b, rfl, ha, hb⟩ m hm
  rcases List.mem_append.mp hm with h | h
  · exact .inl (ha m h)
  · exact .inr (hb m h)

/-- A call of R_TRIG that turns the output on passes through memories with the output off, off and on. -/
example : ∃ a b c, R_TRIG.callStores Trigger.default true = .ok [a, b, c] ∧ (a.output, b.output, c.output) = (false, false, true) :=
  ⟨_, _, _, rfl, rfl⟩

/-! ### Where it is false -/

private theorem not_before_or_after {S I O : Type} {call : S → I → Res S} {stores : S → I → Res (List S)} {fresh : S} {obs : S → O} {h : List I} {i : I}
    {s s' m : S} {ms : List S} (hs : runFB call fresh h = .ok s) (hc : call s i = .ok s') (hm : stores s i = .ok ms) (hx : m ∈ ms)
    (h1 : obs m ≠ obs s) (h2 : obs m ≠ obs s') : ¬ InEveryCall call stores fresh (BeforeOrAfter obs) := fun hall =>
  (hall h s i s' ms hs hc hm m hx).elim h1 h2

/-- **C149** is false for the counters and the timers, whose outputs are stored one after the other.

* CTU, CTD, CTUD: the value that turns an output on can be seen with the output still off.
* TON, TOF, TP: the elapsed time of this call can be seen with the Q of the call before.
* TP: in the call that ends its cycle, ET can even be seen with a value that it has neither before nor after the call. -/
theorem C149_refuted (p : Profile) :
    (∀ t, CounterTy t → ¬ InEveryCall (ctuCall t p) (ctuCallStores t p) CTUParams.default (BeforeOrAfter ctuOutputs)) ∧
    (∀ t, CounterTy t → ¬ InEveryCall (ctdCall t p) (ctdCallStores t p) CTDParams.default (BeforeOrAfter ctdOutputs)) ∧
    (∀ t, CounterTy t → ¬ InEveryCall (ctudCall t p) (ctudCallStores t p) CTUDParams.default (BeforeOrAfter ctudOutputs)) ∧
    ¬ InEveryCall TON.call TON.callStores TimerParams.default (BeforeOrAfter timerOutputs) ∧
    ¬ InEveryCall TOF.call TOF.callStores TimerParams.default (BeforeOrAfter timerOutputs) ∧
    ¬ InEveryCall TP.call TP.callStores TimerParams.default (BeforeOrAfter timerOutputs) ∧
    ¬ InEveryCall TP.call TP.callStores TimerParams.default (BeforeOrAfter (·.elapsed_time)) := by
  refine ⟨?_, ?_, ?_, ?_, ?_, ?_, ?_⟩
  · intro t ht
    refine not_before_or_after (h := []) (i := ⟨true, false, 1⟩) (m := ⟨true, false, 1, false, 1, ⟨true⟩⟩) (s' := ⟨true, false, 1, true, 1, ⟨true⟩⟩)
      (ms := [⟨true, false, 1, false, 0, ⟨false⟩⟩, ⟨true, false, 1, false, 0, ⟨true⟩⟩, ⟨true, false, 1, false, 1, ⟨true⟩⟩, ⟨true, false, 1, true, 1, ⟨true⟩⟩])
      rfl ?_ ?_ (by simp) (by decide) (by decide) <;> rcases ht with rfl | rfl | rfl | rfl | rfl <;> cases p <;> decide
  · intro t ht
    refine not_before_or_after (h := [⟨false, true, 1⟩]) (i := ⟨true, false, 1⟩) (m := ⟨true, false, 1, false, 0, ⟨true⟩⟩)
      (s := ⟨false, true, 1, false, 1, ⟨false⟩⟩) (s' := ⟨true, false, 1, true, 0, ⟨true⟩⟩)
      (ms := [⟨true, false, 1, false, 1, ⟨false⟩⟩, ⟨true, false, 1, false, 1, ⟨true⟩⟩, ⟨true, false, 1, false, 0, ⟨true⟩⟩, ⟨true, false, 1, true, 0, ⟨true⟩⟩])
      ?_ ?_ ?_ (by simp) (by decide) (by decide) <;> rcases ht with rfl | rfl | rfl | rfl | rfl <;> cases p <;> decide
  · intro t ht
    refine not_before_or_after (h := []) (i := ⟨true, false, false, false, 1⟩) (m := ⟨true, false, false, false, 1, false, false, 1, ⟨true⟩, ⟨false⟩⟩)
      (s' := ⟨true, false, false, false, 1, true, false, 1, ⟨true⟩, ⟨false⟩⟩)
      (ms := [⟨true, false, false, false, 1, false, false, 0, ⟨false⟩, ⟨false⟩⟩, ⟨true, false, false, false, 1, false, false, 0, ⟨true⟩, ⟨false⟩⟩,
        ⟨true, false, false, false, 1, false, false, 0, ⟨true⟩, ⟨false⟩⟩, ⟨true, false, false, false, 1, false, false, 1, ⟨true⟩, ⟨false⟩⟩,
        ⟨true, false, false, false, 1, true, false, 1, ⟨true⟩, ⟨false⟩⟩, ⟨true, false, false, false, 1, true, false, 1, ⟨true⟩, ⟨false⟩⟩])
      rfl ?_ ?_ (by simp) (by decide) (by decide) <;> rcases ht with rfl | rfl | rfl | rfl | rfl <;> cases p <;> decide
  · exact not_before_or_after (h := [⟨true, 5, 10, 10⟩]) (i := ⟨true, 5, 20, 20⟩) (m := ⟨true, 5, false, 5, ⟨true⟩, some 10⟩)
      (s := ⟨true, 5, false, 0, ⟨true⟩, some 10⟩) (s' := ⟨true, 5, true, 5, ⟨true⟩, some 10⟩) (ms := TON.stores ⟨true, 5, false, 0, ⟨true⟩, some 10⟩ 20 20)
      rfl (by decide) rfl (by decide) (by decide) (by decide)
  · exact not_before_or_after (h := [⟨true, 5, 5, 5⟩, ⟨false, 5, 10, 10⟩]) (i := ⟨false, 5, 20, 20⟩) (m := ⟨false, 5, true, 5, ⟨false⟩, some 10⟩)
      (s := ⟨false, 5, true, 0, ⟨false⟩, some 10⟩) (s' := ⟨false, 5, false, 5, ⟨false⟩, some 10⟩)
      (ms := TOF.stores ⟨false, 5, true, 0, ⟨false⟩, some 10⟩ 20 20)
      rfl (by decide) rfl (by decide) (by decide) (by decide)
  · exact not_before_or_after (h := [⟨true, 5, 10, 10⟩]) (i := ⟨true, 5, 20, 20⟩) (m := ⟨true, 5, true, 5, ⟨true⟩, some 10⟩)
      (s := ⟨true, 5, true, 0, ⟨true⟩, some 10⟩) (s' := ⟨true, 5, false, 5, ⟨true⟩, some 10⟩) (ms := TP.stores ⟨true, 5, true, 0, ⟨true⟩, some 10⟩ 20 20)
      rfl (by decide) rfl (by decide) (by decide) (by decide)
  · exact not_before_or_after (h := [⟨true, 5, 10, 10⟩, ⟨true, 5, 13, 13⟩]) (i := ⟨false, 5, 20, 20⟩) (m := ⟨false, 5, true, 5, ⟨true⟩, some 10⟩)
      (s := ⟨true, 5, true, 3, ⟨true⟩, some 10⟩) (s' := ⟨false, 5, false, 0, ⟨false⟩, none⟩) (ms := TP.stores ⟨false, 5, true, 3, ⟨true⟩, some 10⟩ 20 20)
      (by decide) (by decide) rfl (by decide) (by decide) (by decide)

/-! ### What can be seen of counters and timers -/

/-- What holds of **C149** for the counters, TON and TOF: each output changes once, the value first (CV, ET) and the outputs Q, QU, QD behind it. What can be seen
besides the outputs from before and after the call is the new value with the old Q; with CTUD also the new CV and QU with the old QD. -/
theorem C149_order_partial (t : IntTy) (p : Profile) (fu : CTUParams) (fd : CTDParams) (fud : CTUDParams) (ft : TimerParams) :
    InEveryCall (ctuCall t p) (ctuCallStores t p) fu (ChangesInOrder (·.cv) (·.q)) ∧
    InEveryCall (ctdCall t p) (ctdCallStores t p) fd (ChangesInOrder (·.cv) (·.q)) ∧
    InEveryCall (ctudCall t p) (ctudCallStores t p) fud (ChangesInOrder (·.cv) (·.qu)) ∧
    InEveryCall (ctudCall t p) (ctudCallStores t p) fud (ChangesInOrder (·.qu) (·.qd)) ∧
    InEveryCall TON.call TON.callStores ft (ChangesInOrder (·.elapsed_time) (·.output)) ∧
    InEveryCall TOF.call TOF.callStores ft (ChangesInOrder (·.elapsed_time) (·.output)) :=
  ⟨ctu_order t p fu, ctd_order t p fd, fun h s i s' ms a b c => (ctud_order t p fud h s i s' ms a b c).1,
    fun h s i s' ms a b c => (ctud_order t p fud h s i s' ms a b c).2.1, ton_order ft, tof_order ft⟩

/-- `ChangesInOrder` says of each of the two outputs that it changes once. -/
theorem changesOnce_of_order {S V W : Type} {x : S → V} {y : S → W} {moments : List S} {s s' : S} (h : ChangesInOrder x y moments s s') :
    ChangesOnce x moments s s' ∧ ChangesOnce y moments s s' := ⟨once_x h, once_y h⟩

/-- What holds of **C149** for TP: as with TON and TOF, except for the call with IN = FALSE that ends its cycle. In that one ET goes through one more value. -/
theorem C149_tp_partial (fresh : TimerParams) :
    InEveryCall TP.call TP.callStores fresh (fun moments s s' =>
      ChangesInOrder (·.elapsed_time) (·.output) moments s s' ∨ EtByWayOf moments s s') := tp_order fresh

/-- The three values of ET in such a call: 3 from before, 5 = PT on the way, 0. -/
example : (TP.callStores ⟨true, 5, true, 3, ⟨true⟩, some 10⟩ ⟨false, 5, 20, 20⟩).bind (fun l => .ok (l.map timerOutputs)) =
    .ok [(true, 3), (true, 5), (true, 5), (true, 5), (true, 0), (false, 0), (false, 0)] := by decide

/-- A task that reads Q first and CV or ET afterwards, both in the middle of a call, never combines the new Q with an old value. -/
theorem C149_q_first_partial (t : IntTy) (p : Profile) (fu : CTUParams) (fd : CTDParams) (fud : CTUDParams) (ft : TimerParams) :
    InEveryCall (ctuCall t p) (ctuCallStores t p) fu (NewWithNew (·.cv) (·.q)) ∧
    InEveryCall (ctdCall t p) (ctdCallStores t p) fd (NewWithNew (·.cv) (·.q)) ∧
    InEveryCall (ctudCall t p) (ctudCallStores t p) fud (NewWithNew (·.cv) (·.qu)) ∧
    InEveryCall (ctudCall t p) (ctudCallStores t p) fud (NewWithNew (·.cv) (·.qd)) ∧
    InEveryCall (ctudCall t p) (ctudCallStores t p) fud (NewWithNew (·.qu) (·.qd)) ∧
    InEveryCall TON.call TON.callStores ft (NewWithNew (·.elapsed_time) (·.output)) ∧
    InEveryCall TOF.call TOF.callStores ft (NewWithNew (·.elapsed_time) (·.output)) ∧
    InEveryCall TP.call TP.callStores ft (NewWithNew (·.elapsed_time) (·.output)) := by
  refine ⟨fun h s i s' ms a b c => later_of_order (ctu_order t p fu h s i s' ms a b c), fun h s i s' ms a b c => later_of_order (ctd_order t p fd h s i s' ms a b c),
    fun h s i s' ms a b c => later_of_order (ctud_order t p fud h s i s' ms a b c).1, fun h s i s' ms a b c => later_of_order (ctud_order t p fud h s i s' ms a b c).2.2,
    fun h s i s' ms a b c => later_of_order (ctud_order t p fud h s i s' ms a b c).2.1, fun h s i s' ms a b c => later_of_order (ton_order ft h s i s' ms a b c),
    fun h s i s' ms a b c => later_of_order (tof_order ft h s i s' ms a b c), fun h s i s' ms a b c => ?_⟩
  rcases tp_order ft h s i s' ms a b c with h' | ⟨hz, -, -, v, q, r, x, y, -, hl, hq, hr, hx, hy⟩
  · exact later_of_order h'
  · rintro u m w m' hu hm' hne
    rw [hl] at hu
    refine (hy m' (in_suffix (good := fun z => z.output = s.output) hu (fun z hz => ?_) hne hm')).1.trans hz.symm
    rcases List.mem_append.mp hz with hz | hz
    · rcases List.mem_append.mp hz with hz | hz
      · exact (hq z hz).2
      · exact (hr z hz).2
    · exact (hx z hz).2

/-- A reader of CTU in the middle of the call that reaches PV = 1: the pairs (Q, CV) it can find; with CV read first and Q later it could also find (TRUE, 0). -/
example : (ctuCallStores .i16 .debug CTUParams.default ⟨true, false, 1⟩).bind (fun l => .ok (l.map ctuOutputs)) =
    .ok [(false, 0), (false, 0), (false, 1), (true, 1)] := by decide

end Verif
