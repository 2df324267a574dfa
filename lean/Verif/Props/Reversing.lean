import Verif.Props.DelayChain
/-
C137: a motor with two directions that are locked against each other, with a pause between them:
`tf(IN := fwd.Q1, PT := T); tb(IN := bwd.Q1, PT := T);
fwd(SET := goF AND NOT tb.Q AND NOT bwd.Q1, RESET1 := stop); bwd(SET := goB AND NOT tf.Q AND NOT fwd.Q1, RESET1 := stop);`
-/
namespace Verif
open Spec TimerParams

namespace Spec

/-- One scan of the program: the commands, and the clock readings of the timers (`a1, a2` of `tf`, `b1, b2` of `tb`). -/
structure MotorScan where
  goF : Bool
  goB : Bool
  stop : Bool
  a1 : Nat
  a2 : Nat
  b1 : Nat
  b2 : Nat

/-- The clock never goes backwards. -/
def MotorClock (h : List MotorScan) : Prop := (h.flatMap fun c => [c.a1, c.a2, c.b1, c.b2]).Pairwise (· ≤ ·)

end Spec

/-- The blocks of the program. -/
structure Motor where
  tf : TimerParams
  tb : TimerParams
  fwd : SetResetParams
  bwd : SetResetParams

/-- One scan of the program (`TOF`, src/timers.rs:135-152, and `RS`, src/bistable_functionblocks.rs:35-37). -/
def motorScan (T : Int) (s : Motor) (c : MotorScan) : Res Motor := do
  let tf ← TOF.call s.tf ⟨s.fwd.output, T, c.a1, c.a2⟩
  let tb ← TOF.call s.tb ⟨s.bwd.output, T, c.b1, c.b2⟩
  let fwd ← RS.call s.fwd ⟨c.goF && !tb.output && !s.bwd.output, c.stop⟩
  let bwd ← RS.call s.bwd ⟨c.goB && !tf.output && !fwd.output, c.stop⟩
  pure ⟨tf, tb, fwd, bwd⟩

/-- The outputs `fwd.Q1` and `bwd.Q1` after the scans `h`, or how the program ended. -/
def motor (T : Int) (h : List MotorScan) : Res (Bool × Bool) :=
  outputs (motorScan T) ⟨TimerParams.default, TimerParams.default, SetResetParams.default, SetResetParams.default⟩
    (fun s => (s.fwd.output, s.bwd.output)) h

/-! ### An off-delay is its last input and its start time -/

/-- An off-delay whose input was last `p.1` and whose start time is `p.2`. -/
def TofIs (s : TimerParams) (p : Bool × Option Nat) : Prop := s.input_edge.current_value = p.1 ∧ s.start_time = p.2

/-- The same after a call with the input `input` and the first clock reading `c1`. -/
def tofNext (p : Bool × Option Nat) (input : Bool) (c1 : Nat) : Bool × Option Nat :=
  (input, if input then (if p.1 then p.2 else none) else if p.1 then some c1 else p.2)

/-- The output of the call with the second clock reading `c2`. -/
def tofQ (T : Int) (p : Bool × Option Nat) (input : Bool) (c2 : Nat) : Bool :=
  input || p.1 || match p.2 with
    | some t0 => decide (((c2 - t0 : Nat) : Int) ≤ T)
    | none => false

theorem tof_is {T : Int} (hT : 0 ≤ T ∧ T < 2 ^ 63) {s : TimerParams} {p : Bool × Option Nat} (h : TofIs s p) (b : Bool) (c1 c2 : Nat) :
    ∃ s', TOF.call s ⟨b, T, c1, c2⟩ = .ok s' ∧ TofIs s' (tofNext p b c1) ∧ s'.output = tofQ T p b c2 := by
  obtain ⟨e, st⟩ := p
  obtain ⟨h1, h2⟩ := h
  have hw := wrap_pt hT
  simp only at h1 h2
  cases b
  · cases e
    · cases st with
      | none =>
        refine ⟨_, by simp [TOF.call, TOF, input_falling_edge, Signal.falling_edge, h1, is_running, h2]; rfl, ?_, ?_⟩
        · simp [TofIs, tofNext, finish, Signal.set]
        · simp [tofQ, finish]
      | some t0 =>
        refine ⟨_, by simp [TOF.call, TOF, input_falling_edge, Signal.falling_edge, h1, is_running, h2]; rfl, ?_, ?_⟩
        · simp [TofIs, tofNext, finish, Signal.set, update_elapsed_time, get_run_time]
        · simp [tofQ, finish, update_elapsed_time, get_run_time, is_in_preset_range, hw]
    · refine ⟨_, by simp [TOF.call, TOF, input_falling_edge, Signal.falling_edge, h1]; rfl, ?_, ?_⟩
      · simp [TofIs, tofNext, finish, Signal.set, start]
      · simp [tofQ, finish]
  · refine ⟨_, by simp [TOF.call, TOF]; rfl, ?_, ?_⟩
    · cases e <;> simp [TofIs, tofNext, finish, Signal.set, input_rising_edge, Signal.rising_edge, h1, h2, reset]
    · simp [tofQ, finish]

/-! ### The program as a state machine -/

private structure MotorState where
  f : Bool
  b : Bool
  tf : Bool × Option Nat
  tb : Bool × Option Nat

private def next (T : Int) (s : MotorState) (c : MotorScan) : MotorState :=
  let f := !c.stop && ((c.goF && !tofQ T s.tb s.b c.b2 && !s.b) || s.f)
  ⟨f, !c.stop && ((c.goB && !tofQ T s.tf s.f c.a2 && !f) || s.b), tofNext s.tf s.f c.a1, tofNext s.tb s.b c.b1⟩

private def st (T : Int) (h : List MotorScan) : MotorState := h.foldl (next T) ⟨false, false, (false, none), (false, none)⟩

private theorem st_snoc (T : Int) (h : List MotorScan) (c : MotorScan) : st T (h ++ [c]) = next T (st T h) c := by
  simp [st, List.foldl_append]

private theorem motor_is {T : Int} (hT : 0 ≤ T ∧ T < 2 ^ 63) (h : List MotorScan) :
    ∃ s, runFB (motorScan T) ⟨TimerParams.default, TimerParams.default, SetResetParams.default, SetResetParams.default⟩ h = .ok s ∧
      s.fwd.output = (st T h).f ∧ s.bwd.output = (st T h).b ∧ TofIs s.tf (st T h).tf ∧ TofIs s.tb (st T h).tb := by
  refine snoc_induction ?_ ?_ h
  · exact ⟨_, rfl, rfl, rfl, ⟨rfl, rfl⟩, ⟨rfl, rfl⟩⟩
  · intro h c ih
    obtain ⟨s, e, i1, i2, i3, i4⟩ := ih
    obtain ⟨tf, e1, j1, q1⟩ := tof_is hT i3 s.fwd.output c.a1 c.a2
    obtain ⟨tb, e2, j2, q2⟩ := tof_is hT i4 s.bwd.output c.b1 c.b2
    rw [runFB_snoc_ok e, st_snoc]
    simp only [motorScan, e1, e2, Res.bind_ok, RS.call, RS]
    refine ⟨_, rfl, ?_, ?_, ?_, ?_⟩
    · simp only [q2, i1, i2, next]
    · simp only [q1, q2, i1, i2, next]
    · rw [i1] at j1; exact j1
    · rw [i2] at j2; exact j2

private theorem motor_eq {T : Int} (hT : 0 ≤ T ∧ T < 2 ^ 63) (h : List MotorScan) : motor T h = .ok ((st T h).f, (st T h).b) := by
  obtain ⟨s, e, i1, i2, _⟩ := motor_is hT h
  simp [motor, outputs, e, i1, i2]

private theorem not_both (T : Int) (h : List MotorScan) : ((st T h).f && (st T h).b) = false := by
  refine snoc_induction rfl ?_ h
  intro h c ih
  rw [st_snoc]
  simp only [next]
  revert ih
  cases (st T h).f <;> cases (st T h).b <;> cases c.stop <;> cases c.goF <;> cases c.goB <;> simp +contextual

/-- **C137.** The program never aborts, and the motor is never switched on in both directions. -/
theorem C137_locked (T : Int) (hT : 0 ≤ T ∧ T < 2 ^ 63) (h : List MotorScan) :
    ∃ f b, motor T h = .ok (f, b) ∧ ¬ (f = true ∧ b = true) := by
  refine ⟨_, _, motor_eq hT h, ?_⟩
  have := not_both T h
  rintro ⟨h1, h2⟩
  simp [h1, h2] at this

private theorem clock_snoc {h : List MotorScan} {c : MotorScan} (hc : MotorClock (h ++ [c])) :
    MotorClock h ∧ c.a1 ≤ c.a2 ∧ c.a2 ≤ c.b1 ∧ c.b1 ≤ c.b2 ∧ ∀ d ∈ h, d.a1 ≤ c.a1 ∧ d.b1 ≤ c.a1 ∧ d.b2 ≤ c.a1 := by
  unfold MotorClock at hc
  rw [List.flatMap_append, List.pairwise_append] at hc
  obtain ⟨h1, h2, h3⟩ := hc
  simp at h2
  refine ⟨h1, h2.1.1, h2.2.1.1, h2.2.2, fun d hd => ⟨?_, ?_, ?_⟩⟩
  · exact h3 d.a1 (List.mem_flatMap.2 ⟨d, hd, by simp⟩) c.a1 (by simp)
  · exact h3 d.b1 (List.mem_flatMap.2 ⟨d, hd, by simp⟩) c.a1 (by simp)
  · exact h3 d.b2 (List.mem_flatMap.2 ⟨d, hd, by simp⟩) c.a1 (by simp)

/-- What the two timers remember of every scan `x` in which their direction was on: it still is, or it was in the scan before the last one, or the
timer was started after `x`. -/
private def Remembers (T : Int) (h : List MotorScan) : Prop :=
  ∀ pre x mid, h = pre ++ x :: mid →
    ((st T (pre ++ [x])).f = true → (st T h).f = true ∨ (st T h).tf.1 = true ∨ ∃ t, (st T h).tf.2 = some t ∧ x.b2 ≤ t) ∧
    ((st T (pre ++ [x])).b = true → (st T h).b = true ∨ (st T h).tb.1 = true ∨ ∃ t, (st T h).tb.2 = some t ∧ x.b2 ≤ t)

private theorem split_snoc {h pre mid : List MotorScan} {x c : MotorScan} (e : h ++ [c] = pre ++ x :: mid) :
    (pre = h ∧ x = c ∧ mid = []) ∨ ∃ mid', mid = mid' ++ [c] ∧ h = pre ++ x :: mid' := by
  rcases List.eq_nil_or_concat mid with rfl | ⟨m, y, rfl⟩
  · have := List.append_inj' e rfl
    exact .inl ⟨this.1.symm, by simpa using this.2.symm, rfl⟩
  · rw [List.concat_eq_append, ← List.cons_append, ← List.append_assoc] at e
    have := List.append_inj' e rfl
    exact .inr ⟨m, by rw [List.concat_eq_append]; simp at this; rw [this.2], this.1⟩

private theorem remembers (T : Int) (h : List MotorScan) : MotorClock h → Remembers T h := by
  refine snoc_induction ?_ ?_ h
  · intro _ pre x mid e; simp at e
  · intro h c ih hc pre x mid e
    obtain ⟨hc', c1, c2, c3, hd⟩ := clock_snoc hc
    rcases split_snoc e with ⟨rfl, rfl, rfl⟩ | ⟨mid', rfl, rfl⟩
    · exact ⟨fun h => .inl h, fun h => .inl h⟩
    · obtain ⟨r1, r2⟩ := ih hc' pre x mid' rfl
      have hx := (hd x (by simp)).2.2
      rw [st_snoc T (pre ++ x :: mid') c]
      generalize st T (pre ++ x :: mid') = s at r1 r2
      refine ⟨fun hf => .inr ?_, fun hb => .inr ?_⟩
      · simp only [next, tofNext]
        rcases r1 hf with h | h | ⟨t, h, ht⟩
        · exact .inl h
        · cases hs : s.f
          · exact .inr ⟨c.a1, by simp [h], hx⟩
          · exact .inl rfl
        · cases hs : s.f
          · cases hp : s.tf.1
            · exact .inr ⟨t, by simp [h], ht⟩
            · exact .inr ⟨c.a1, by simp, hx⟩
          · exact .inl rfl
      · simp only [next, tofNext]
        rcases r2 hb with h | h | ⟨t, h, ht⟩
        · exact .inl h
        · cases hs : s.b
          · exact .inr ⟨c.b1, by simp [h], by omega⟩
          · exact .inl rfl
        · cases hs : s.b
          · cases hp : s.tb.1
            · exact .inr ⟨t, by simp [h], ht⟩
            · exact .inr ⟨c.b1, by simp, by omega⟩
          · exact .inl rfl

private theorem pause (T : Int) (hT : 0 ≤ T) (h : List MotorScan) : ∀ y, MotorClock (h ++ [y]) → ∀ pre x mid, h = pre ++ x :: mid →
    ((st T (pre ++ [x])).f = true → (st T (h ++ [y])).b = true → (y.b2 : Int) - x.b2 > T) ∧
    ((st T (pre ++ [x])).b = true → (st T (h ++ [y])).f = true → (y.b2 : Int) - x.b2 > T) := by
  refine snoc_induction ?_ ?_ h
  · intro y _ pre x mid e; simp at e
  · intro h c ih y hc pre x mid e
    obtain ⟨hc', c1, c2, c3, hd⟩ := clock_snoc hc
    obtain ⟨r1, r2⟩ := remembers T (h ++ [c]) hc' pre x mid e
    have hcy := (hd c (by simp)).2.2
    have nb := not_both T (h ++ [c])
    have ih' := ih c hc'
    rw [st_snoc T (h ++ [c]) y]
    constructor
    · intro hf hb
      cases hs : (st T (h ++ [c])).b
      · simp only [next, hs] at hb
        have hq : tofQ T (st T (h ++ [c])).tf (st T (h ++ [c])).f y.a2 = false := by
          revert hb; cases tofQ T (st T (h ++ [c])).tf (st T (h ++ [c])).f y.a2 <;> simp
        simp [tofQ] at hq
        rcases r1 hf with h' | h' | ⟨t, h', ht⟩
        · simp [h'] at hq
        · simp [h'] at hq
        · simp [h'] at hq; omega
      · rcases split_snoc e with ⟨rfl, rfl, rfl⟩ | ⟨mid', rfl, e'⟩
        · simp [hf, hs] at nb
        · have := (ih' pre x mid' e').1 hf hs; omega
    · intro hb hf
      cases hs : (st T (h ++ [c])).f
      · simp only [next, hs] at hf
        have hq : tofQ T (st T (h ++ [c])).tb (st T (h ++ [c])).b y.b2 = false := by
          revert hf; cases tofQ T (st T (h ++ [c])).tb (st T (h ++ [c])).b y.b2 <;> simp
        simp [tofQ] at hq
        rcases r2 hb with h' | h' | ⟨t, h', ht⟩
        · simp [h'] at hq
        · simp [h'] at hq
        · simp [h'] at hq; omega
      · rcases split_snoc e with ⟨rfl, rfl, rfl⟩ | ⟨mid', rfl, e'⟩
        · simp [hb, hs] at nb
        · have := (ih' pre x mid' e').2 hb hs; omega

/-- **C137.** Between a scan `x` with the motor on in one direction and a later scan `y` with the motor on in the other one, more than `T` goes by. -/
theorem C137_pause (T : Int) (hT : 0 ≤ T ∧ T < 2 ^ 63) (pre mid : List MotorScan) (x y : MotorScan)
    (hc : MotorClock (pre ++ x :: mid ++ [y])) (f b f' b' : Bool) (hx : motor T (pre ++ [x]) = .ok (f, b))
    (hy : motor T (pre ++ x :: mid ++ [y]) = .ok (f', b')) :
    (f = true ∧ b' = true ∨ b = true ∧ f' = true) → (y.b2 : Int) - x.b2 > T := by
  have p := pause T hT.1 _ y hc pre x mid rfl
  rw [motor_eq hT] at hx hy
  simp only [Res.ok.injEq, Prod.mk.injEq] at hx hy
  rw [hx.1, hx.2, hy.1, hy.2] at p
  rintro (⟨h1, h2⟩ | ⟨h1, h2⟩)
  · exact p.1 h1 h2
  · exact p.2 h1 h2

/-- **C137.** STOP switches the motor off at once; without STOP a motor that is on stays on. -/
theorem C137_stop (T : Int) (hT : 0 ≤ T ∧ T < 2 ^ 63) (h : List MotorScan) (c : MotorScan) (f b : Bool) (hm : motor T h = .ok (f, b)) :
    (c.stop = true → motor T (h ++ [c]) = .ok (false, false)) ∧
    (c.stop = false → f = true → motor T (h ++ [c]) = .ok (true, false)) ∧
    (c.stop = false → b = true → motor T (h ++ [c]) = .ok (false, true)) := by
  have nb := not_both T (h ++ [c])
  rw [motor_eq hT] at hm ⊢
  rw [st_snoc] at nb ⊢
  simp only [Res.ok.injEq, Prod.mk.injEq] at hm ⊢
  simp only [next, hm.1, hm.2] at nb ⊢
  refine ⟨fun hs => by simp [hs], fun hs hf => ?_, fun hs hb => ?_⟩
  · subst hf; simp [hs] at nb ⊢; exact nb
  · subst hb; simp [hs] at nb ⊢; exact nb

private theorem started_before (T : Int) (h : List MotorScan) :
    (∀ t, (st T h).tf.2 = some t → ∃ d ∈ h, t = d.a1) ∧ (∀ t, (st T h).tb.2 = some t → ∃ d ∈ h, t = d.b1) := by
  refine snoc_induction ?_ ?_ h
  · constructor <;> (intro t ht; simp [st] at ht)
  · rintro h c ⟨i1, i2⟩
    rw [st_snoc]
    generalize st T h = s at i1 i2
    constructor
    · intro t ht
      simp only [next, tofNext] at ht
      cases hs : s.f <;> cases hp : s.tf.1 <;> simp [hs, hp] at ht
      · obtain ⟨d, hd, e⟩ := i1 t ht; exact ⟨d, by simp [hd], e⟩
      · exact ⟨c, by simp, ht.symm⟩
      · obtain ⟨d, hd, e⟩ := i1 t ht; exact ⟨d, by simp [hd], e⟩
    · intro t ht
      simp only [next, tofNext] at ht
      cases hs : s.b <;> cases hp : s.tb.1 <;> simp [hs, hp] at ht
      · obtain ⟨d, hd, e⟩ := i2 t ht; exact ⟨d, by simp [hd], e⟩
      · exact ⟨c, by simp, ht.symm⟩
      · obtain ⟨d, hd, e⟩ := i2 t ht; exact ⟨d, by simp [hd], e⟩

private theorem idle_f (T : Int) (pre : List MotorScan) (z : MotorScan) (mid : List MotorScan) (hc : MotorClock (pre ++ z :: mid))
    (h0 : ∀ m m', z :: mid = m ++ m' → m' ≠ [] → (st T (pre ++ m)).f = false) :
    (st T (pre ++ z :: mid)).tf.1 = false ∧ ∀ t, (st T (pre ++ z :: mid)).tf.2 = some t → t ≤ z.a1 := by
  revert h0 hc
  refine snoc_induction ?_ ?_ mid
  · intro hc h0
    obtain ⟨-, -, -, -, hd⟩ := clock_snoc hc
    have hf : (st T pre).f = false := by simpa using h0 [] [z] rfl (by simp)
    rw [st_snoc]
    refine ⟨by simp [next, tofNext, hf], fun t ht => ?_⟩
    simp only [next, tofNext, hf] at ht
    cases hp : (st T pre).tf.1 <;> simp [hp] at ht
    · obtain ⟨d, hdm, rfl⟩ := (started_before T pre).1 t ht
      exact (hd d hdm).1
    · omega
  · intro mid c ih hc h0
    rw [← List.cons_append, ← List.append_assoc] at hc ⊢
    obtain ⟨hc', -⟩ := clock_snoc hc
    obtain ⟨i1, i2⟩ := ih hc' fun m m' e hm => h0 m (m' ++ [c]) (by rw [← List.cons_append, e]; simp) (by simp)
    have hf : (st T (pre ++ z :: mid)).f = false := h0 (z :: mid) [c] rfl (by simp)
    rw [st_snoc]
    refine ⟨by simp [next, tofNext, hf], fun t ht => ?_⟩
    simp only [next, tofNext, hf, i1] at ht
    exact i2 t (by simpa using ht)

private theorem idle_b (T : Int) (pre : List MotorScan) (z : MotorScan) (mid : List MotorScan) (hc : MotorClock (pre ++ z :: mid))
    (h0 : ∀ m m', z :: mid = m ++ m' → m' ≠ [] → (st T (pre ++ m)).b = false) :
    (st T (pre ++ z :: mid)).tb.1 = false ∧ ∀ t, (st T (pre ++ z :: mid)).tb.2 = some t → t ≤ z.b1 := by
  revert h0 hc
  refine snoc_induction ?_ ?_ mid
  · intro hc h0
    obtain ⟨-, _, _, _, hd⟩ := clock_snoc hc
    have hf : (st T pre).b = false := by simpa using h0 [] [z] rfl (by simp)
    rw [st_snoc]
    refine ⟨by simp [next, tofNext, hf], fun t ht => ?_⟩
    simp only [next, tofNext, hf] at ht
    cases hp : (st T pre).tb.1 <;> simp [hp] at ht
    · obtain ⟨d, hdm, rfl⟩ := (started_before T pre).2 t ht
      have := (hd d hdm).2.1
      omega
    · omega
  · intro mid c ih hc h0
    rw [← List.cons_append, ← List.append_assoc] at hc ⊢
    obtain ⟨hc', -⟩ := clock_snoc hc
    obtain ⟨i1, i2⟩ := ih hc' fun m m' e hm => h0 m (m' ++ [c]) (by rw [← List.cons_append, e]; simp) (by simp)
    have hf : (st T (pre ++ z :: mid)).b = false := h0 (z :: mid) [c] rfl (by simp)
    rw [st_snoc]
    refine ⟨by simp [next, tofNext, hf], fun t ht => ?_⟩
    simp only [next, tofNext, hf, i1] at ht
    exact i2 t (by simpa using ht)

/-- **C137.** The pause is not longer than needed: if the motor was off in the scans from `pre` on and more than `T` has gone by since the scan after
`pre`, it starts in the scan of the command. (`goB` only counts if `goF` is not given at the same time.) -/
theorem C137_starts (T : Int) (hT : 0 ≤ T ∧ T < 2 ^ 63) (pre mid : List MotorScan) (z c : MotorScan) (hc : MotorClock (pre ++ z :: mid ++ [c]))
    (hoff : ∀ m m', z :: mid = m ++ m' → motor T (pre ++ m) = .ok (false, false)) (hs : c.stop = false) :
    (c.goF = true → (c.b2 : Int) - z.b1 > T → motor T (pre ++ z :: mid ++ [c]) = .ok (true, false)) ∧
    (c.goF = false → c.goB = true → (c.a2 : Int) - z.a1 > T → motor T (pre ++ z :: mid ++ [c]) = .ok (false, true)) := by
  obtain ⟨hc', c1, c2, c3, hd⟩ := clock_snoc hc
  have off : ∀ m m', z :: mid = m ++ m' → (st T (pre ++ m)).f = false ∧ (st T (pre ++ m)).b = false := fun m m' e => by
    have := hoff m m' e
    rw [motor_eq hT] at this
    simpa using this
  obtain ⟨f1, f2⟩ := idle_f T pre z mid hc' fun m m' e _ => (off m m' e).1
  obtain ⟨b1, b2⟩ := idle_b T pre z mid hc' fun m m' e _ => (off m m' e).2
  obtain ⟨o1, o2⟩ := off (z :: mid) [] (by simp)
  rw [motor_eq hT, st_snoc]
  generalize st T (pre ++ z :: mid) = s at *
  have qf : (c.a2 : Int) - z.a1 > T → tofQ T s.tf s.f c.a2 = false := fun hl => by
    simp only [tofQ, o1, f1, Bool.or_self, Bool.false_or]
    cases ht : s.tf.2 with
    | none => rfl
    | some t => have := f2 t ht; simp; omega
  have qb : (c.b2 : Int) - z.b1 > T → tofQ T s.tb s.b c.b2 = false := fun hl => by
    simp only [tofQ, o2, b1, Bool.or_self, Bool.false_or]
    cases ht : s.tb.2 with
    | none => rfl
    | some t => have := b2 t ht; simp; omega
  refine ⟨fun hg hl => ?_, fun hg hg' hl => ?_⟩
  · have q := qb hl; rw [o2] at q; simp [next, q, hs, hg, o1, o2]
  · have q := qf hl; rw [o1] at q; simp [next, q, hs, hg, hg', o1, o2]

/-! ### Examples -/

/-- Forward from the first scan, STOP in the second one; the command to go backward is obeyed when 20 ns have gone by. -/
example :
    let h : List MotorScan := [⟨true, false, false, 0, 1, 2, 3⟩, ⟨false, false, true, 10, 11, 12, 13⟩, ⟨false, true, false, 20, 21, 22, 23⟩,
      ⟨false, true, false, 30, 31, 32, 33⟩, ⟨false, true, false, 41, 42, 43, 44⟩]
    MotorClock h ∧ motor 20 (h.take 1) = .ok (true, false) ∧ motor 20 (h.take 2) = .ok (false, false) ∧ motor 20 (h.take 3) = .ok (false, false) ∧
      motor 20 (h.take 4) = .ok (false, false) ∧ motor 20 h = .ok (false, true) := by
  refine ⟨by unfold MotorClock; decide, ?_⟩
  decide +kernel

end Verif
