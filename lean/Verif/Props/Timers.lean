import Verif.Spec.Timers
import Verif.Proofs.Lists
/-
C11-C17: timers.
-/
namespace Verif
open Spec TimerParams

abbrev tonAfter (h : List TimerIn) : Res TimerParams := runFB TON.call TimerParams.default h
abbrev tofAfter (h : List TimerIn) : Res TimerParams := runFB TOF.call TimerParams.default h
abbrev tpAfter (h : List TimerIn) : Res TimerParams := runFB TP.call TimerParams.default h

theorem wrap_pt {pt : Int} (h : 0 ≤ pt ∧ pt < 2 ^ 63) : IntTy.u64.wrap pt = pt := by
  simp only [IntTy.wrap, IntTy.u64, Bool.false_eq_true, if_false]
  omega

theorem wrap_i64_small {d : Nat} (h : d < 2 ^ 63) : IntTy.i64.wrap d = d := by
  simp only [IntTy.wrap, IntTy.i64, if_true]
  rw [Int.bmod_def]
  have : ((2 ^ 64 : Nat) : Int) = 18446744073709551616 := by decide
  rw [this]
  split <;> omega

private theorem endsWith_snoc {b : Bool} {h : List TimerIn} {x : TimerIn} :
    EndsWith b (h ++ [x]) ↔ x.input = b := by
  constructor
  · rintro ⟨h', y, e, hy⟩
    have := List.append_inj' e rfl
    have h2 : x = y := by simpa using this.2
    rwa [h2]
  · intro hx; exact ⟨h, x, rfl, hx⟩

private theorem not_endsWith_nil {b : Bool} : ¬ EndsWith b [] := by
  rintro ⟨h', y, e, _⟩; simp at e

private theorem clock_pair {h : List TimerIn} (hc : ClockOk h) {a b c : List TimerIn}
    {x y : TimerIn} (e : h = a ++ x :: b ++ y :: c) : x.t1 ≤ y.t1 ∧ y.t1 < 2 ^ 63 ∧ x.t1 ≤ y.t2 ∧
      y.t2 < 2 ^ 63 ∧ y.t1 ≤ y.t2 := by
  obtain ⟨h1, h2⟩ := hc
  subst e
  simp only [readings, List.flatMap_append, List.flatMap_cons, List.pairwise_append,
    List.pairwise_cons, List.mem_append, List.mem_cons] at h1 h2
  simp only [List.not_mem_nil] at h1 h2
  exact ⟨h1.2.2 _ (.inr (.inl (.inl rfl))) _ (.inl (.inl rfl)), h2 _ (.inr (.inl (.inl rfl))),
    h1.2.2 _ (.inr (.inl (.inl rfl))) _ (.inl (.inr (.inl rfl))),
    h2 _ (.inr (.inl (.inr (.inl rfl)))), h1.2.1.1.1 _ (.inl rfl)⟩

private theorem trueRun_snoc {h pre run : List TimerIn} {first i : TimerIn}
    (H : TrueRun (h ++ [i]) pre first run) :
    (run = [] ∧ pre = h ∧ first = i ∧ (h = [] ∨ EndsWith false h) ∧ i.input = true) ∨
    (∃ run', run = run' ++ [i] ∧ TrueRun h pre first run' ∧ i.input = true) := by
  obtain ⟨e, hp, hf, hr⟩ := H
  rcases snoc_cases run with rfl | ⟨run', z, rfl⟩
  · have := List.append_inj' e rfl
    have h2 : i = first := by simpa using this.2
    subst h2
    have h1 := this.1
    subst h1
    exact .inl ⟨rfl, rfl, rfl, hp, hf⟩
  · have e' : h ++ [i] = (pre ++ first :: run') ++ [z] := by simpa using e
    have := List.append_inj' e' rfl
    have h2 : i = z := by simpa using this.2
    subst h2
    exact .inr ⟨run', rfl, ⟨this.1, hp, hf, fun x hx => hr x (by simp [hx])⟩, hr i (by simp)⟩

private theorem falseRun_snoc {h pre run : List TimerIn} {first i : TimerIn}
    (H : FalseRun (h ++ [i]) pre first run) :
    (run = [] ∧ pre = h ∧ first = i ∧ EndsWith true h ∧ i.input = false) ∨
    (∃ run', run = run' ++ [i] ∧ FalseRun h pre first run' ∧ i.input = false) := by
  obtain ⟨e, hp, hf, hr⟩ := H
  rcases snoc_cases run with rfl | ⟨run', z, rfl⟩
  · have := List.append_inj' e rfl
    have h2 : i = first := by simpa using this.2
    subst h2
    have h1 := this.1
    subst h1
    exact .inl ⟨rfl, rfl, rfl, hp, hf⟩
  · have e' : h ++ [i] = (pre ++ first :: run') ++ [z] := by simpa using e
    have := List.append_inj' e' rfl
    have h2 : i = z := by simpa using this.2
    subst h2
    exact .inr ⟨run', rfl, ⟨this.1, hp, hf, fun x hx => hr x (by simp [hx])⟩, hr i (by simp)⟩

/-- Every history is empty, ends with IN = FALSE, or ends with a maximal run of TRUE. -/
theorem trueRun_exists (h : List TimerIn) :
    (h = [] ∨ EndsWith false h) ∨ ∃ pre first run, TrueRun h pre first run := by
  refine snoc_induction ?_ ?_ h
  · exact .inl (.inl rfl)
  · intro h i ih
    cases hi : i.input
    · exact .inl (.inr ⟨h, i, rfl, hi⟩)
    · right
      rcases ih with ih | ⟨pre, first, run, e, hp, hf, hr⟩
      · exact ⟨h, i, [], by simp, ih, hi, by simp⟩
      · refine ⟨pre, first, run ++ [i], by simp [e], hp, hf, ?_⟩
        intro x hx
        rcases List.mem_append.1 hx with hx | hx
        · exact hr x hx
        · have : x = i := by simpa using hx
          rwa [this]

/-! ### TON -/

private theorem ton_call_false (s : TimerParams) {i : TimerIn} (hi : i.input = false) :
    ∃ s', TON.call s i = .ok s' ∧ s'.start_time = none ∧ s'.elapsed_time = 0 ∧
      s'.output = false ∧ s'.input_edge.current_value = false :=
  ⟨_, by simp [TON.call, TON, hi]; rfl, by simp [finish, reset, Signal.set]⟩

private theorem ton_call_start (s : TimerParams) {i : TimerIn} (hi : i.input = true)
    (h1 : s.start_time = none) (h2 : s.input_edge.current_value = false) :
    ∃ s', TON.call s i = .ok s' ∧ s'.start_time = some i.t1 ∧ s'.elapsed_time = 0 ∧
      s'.output = false ∧ s'.input_edge.current_value = true :=
  ⟨_, by simp [TON.call, TON, hi, is_running, h1, input_rising_edge, Signal.rising_edge, h2]; rfl,
    by simp [finish, start, Signal.set]⟩

private theorem ton_call_run (s : TimerParams) {i : TimerIn} {t0 : Nat} (hi : i.input = true)
    (h1 : s.start_time = some t0) :
    ∃ s', TON.call s i = .ok s' ∧ s'.start_time = some t0 ∧
      s'.elapsed_time = min i.pt (IntTy.i64.wrap ((i.t1 - t0 : Nat) : Int)) ∧
      s'.output = decide (IntTy.u64.wrap i.pt < ((i.t2 - t0 : Nat) : Int)) ∧
      s'.input_edge.current_value = true := by
  refine ⟨_, by simp [TON.call, TON, hi, is_running, h1]; rfl, ?_⟩
  simp [finish, update_elapsed_time, get_run_time, is_in_preset_range, Signal.set]
  by_cases hlt : IntTy.u64.wrap i.pt < ((i.t2 - t0 : Nat) : Int)
  · have hle : ¬ (((i.t2 - t0 : Nat) : Int) ≤ IntTy.u64.wrap i.pt) := by omega
    simp [hlt, hle]
  · have hle : ((i.t2 - t0 : Nat) : Int) ≤ IntTy.u64.wrap i.pt := by omega
    simp [hlt, hle]

private theorem ton_inv (h : List TimerIn) : ∃ s, tonAfter h = .ok s ∧
    (h = [] ∨ EndsWith false h → s.start_time = none ∧ s.elapsed_time = 0 ∧ s.output = false ∧
      s.input_edge.current_value = false) ∧
    (∀ pre first run, TrueRun h pre first run → s.start_time = some first.t1 ∧
      s.input_edge.current_value = true) := by
  refine snoc_induction ?_ ?_ h
  · refine ⟨_, rfl, fun _ => ⟨rfl, rfl, rfl, rfl⟩, ?_⟩
    rintro pre first run ⟨e, _⟩
    simp at e
  · rintro h i ⟨s, hs, h0, h1⟩
    rw [tonAfter, runFB_snoc_ok hs]
    cases hi : i.input
    · obtain ⟨s', e, p1, p2, p3, p4⟩ := ton_call_false s hi
      refine ⟨s', e, fun _ => ⟨p1, p2, p3, p4⟩, ?_⟩
      intro pre first run H
      rcases trueRun_snoc H with ⟨_, _, _, _, h⟩ | ⟨_, _, _, h⟩ <;> simp [hi] at h
    · have hne : ¬ (h ++ [i] = [] ∨ EndsWith false (h ++ [i])) := by
        rintro (h' | h')
        · simp at h'
        · rw [endsWith_snoc, hi] at h'; simp at h'
      rcases trueRun_exists h with hh | ⟨pre, first, run, hrun⟩
      · obtain ⟨a1, a2, a3, a4⟩ := h0 hh
        obtain ⟨s', e, p1, p2, p3, p4⟩ := ton_call_start s hi a1 a4
        refine ⟨s', e, fun h => absurd h hne, ?_⟩
        intro pre first run H
        rcases trueRun_snoc H with ⟨_, _, rfl, _⟩ | ⟨run', rfl, hr, _⟩
        · exact ⟨p1, p4⟩
        · obtain ⟨b1, b2⟩ := h1 _ _ _ hr
          rw [a1] at b1; simp at b1
      · obtain ⟨b1, b2⟩ := h1 _ _ _ hrun
        obtain ⟨s', e, p1, p2, p3, p4⟩ := ton_call_run s hi b1
        refine ⟨s', e, fun h => absurd h hne, ?_⟩
        intro pre' first' run' H
        rcases trueRun_snoc H with ⟨_, _, rfl, hh, _⟩ | ⟨run', rfl, hr, _⟩
        · obtain ⟨a1, _⟩ := h0 hh
          rw [a1] at b1; simp at b1
        · obtain ⟨c1, c2⟩ := h1 _ _ _ hr
          rw [b1] at c1
          exact ⟨by rw [p1, c1], p4⟩

/-- Everything about the last call of a TON history. -/
theorem ton_last (h : List TimerIn) (i : TimerIn) :
    ∃ s, tonAfter (h ++ [i]) = .ok s ∧
      (i.input = false → s.output = false ∧ s.elapsed_time = 0) ∧
      (i.input = true → (h = [] ∨ EndsWith false h) → s.output = false ∧ s.elapsed_time = 0) ∧
      (i.input = true → ∀ pre first run, TrueRun h pre first run →
        s.output = decide (IntTy.u64.wrap i.pt < ((i.t2 - first.t1 : Nat) : Int)) ∧
        s.elapsed_time = min i.pt (IntTy.i64.wrap ((i.t1 - first.t1 : Nat) : Int))) := by
  obtain ⟨s, hs, h0, h1⟩ := ton_inv h
  rw [tonAfter, runFB_snoc_ok hs]
  cases hi : i.input
  · obtain ⟨s', e, p1, p2, p3, p4⟩ := ton_call_false s hi
    exact ⟨s', e, fun _ => ⟨p3, p2⟩, by simp, by simp⟩
  · rcases trueRun_exists h with hh | ⟨pre, first, run, hrun⟩
    · obtain ⟨a1, a2, a3, a4⟩ := h0 hh
      obtain ⟨s', e, p1, p2, p3, p4⟩ := ton_call_start s hi a1 a4
      refine ⟨s', e, by simp, fun _ _ => ⟨p3, p2⟩, ?_⟩
      intro _ pre first run H
      obtain ⟨b1, b2⟩ := h1 _ _ _ H
      rw [a1] at b1; simp at b1
    · obtain ⟨b1, b2⟩ := h1 _ _ _ hrun
      obtain ⟨s', e, p1, p2, p3, p4⟩ := ton_call_run s hi b1
      refine ⟨s', e, by simp, ?_, ?_⟩
      · intro _ hh
        obtain ⟨a1, _⟩ := h0 hh
        rw [a1] at b1; simp at b1
      · intro _ pre' first' run' H
        obtain ⟨c1, _⟩ := h1 _ _ _ H
        rw [b1] at c1
        have c1 : first.t1 = first'.t1 := by simpa using c1
        rw [← c1]
        exact ⟨p3, p2⟩

/-- **C11.** After any history `h` and one more call `i` with PT >= 0, TON has not panicked, and Q
is TRUE iff IN is TRUE and `h` ends with a maximal run of TRUE inputs whose first call was
(strictly) more than PT ago. -/
theorem C11_ton_output (h : List TimerIn) (i : TimerIn) (hp : PresetOk [i]) :
    ∃ s, tonAfter (h ++ [i]) = .ok s ∧
      (s.output = true ↔ i.input = true ∧
        ∃ pre first run, TrueRun h pre first run ∧ elapsed2 first i > i.pt) := by
  obtain ⟨s, hs, h1, h2, h3⟩ := ton_last h i
  refine ⟨s, hs, ?_⟩
  have hpt := hp i (by simp)
  cases hi : i.input
  · simp [h1 hi]
  · rcases trueRun_exists h with hh | ⟨pre, first, run, hrun⟩
    · rw [(h2 hi hh).1]
      simp only [Bool.false_eq_true, true_and, false_iff, not_exists, not_and]
      rintro pre first run ⟨e, _, hf, hr⟩ _
      rcases hh with rfl | hh
      · simp at e
      · subst e
        rcases snoc_cases run with rfl | ⟨run', z, rfl⟩
        · rw [endsWith_snoc, hf] at hh; simp at hh
        · have hz := hr z (by simp)
          rw [show pre ++ first :: (run' ++ [z]) = (pre ++ first :: run') ++ [z] by simp,
            endsWith_snoc, hz] at hh
          simp at hh
    · constructor
      · intro ho
        rw [(h3 hi _ _ _ hrun).1, wrap_pt hpt] at ho
        have := of_decide_eq_true ho
        refine ⟨rfl, pre, first, run, hrun, ?_⟩
        simp only [elapsed2]; omega
      · rintro ⟨_, pre', first', run', hrun', he⟩
        rw [(h3 hi _ _ _ hrun').1, wrap_pt hpt]
        simp only [elapsed2] at he
        apply decide_eq_true; omega

/-- A TON with PT = 5 that has been TRUE from time 10 to time 17 (with a FALSE before). -/
example : TrueRun [⟨false, 5, 9, 9⟩, ⟨true, 5, 10, 10⟩, ⟨true, 5, 12, 12⟩] [⟨false, 5, 9, 9⟩]
    ⟨true, 5, 10, 10⟩ [⟨true, 5, 12, 12⟩] ∧
    elapsed2 ⟨true, 5, 10, 10⟩ ⟨true, 5, 16, 17⟩ > 5 ∧ PresetOk [⟨true, 5, 16, 17⟩] :=
  ⟨⟨rfl, .inr ⟨[], _, rfl, rfl⟩, rfl, by simp⟩, by decide, by simp [PresetOk]⟩

/-- **C12.** ET after any history `h` and one more call `i`: 0 when IN is FALSE or when this call
starts the timer; otherwise min(PT, time since the first call of the current run of TRUE inputs). -/
theorem C12_ton_elapsed_time (h : List TimerIn) (i : TimerIn) (hc : ClockOk (h ++ [i])) :
    ∃ s, tonAfter (h ++ [i]) = .ok s ∧
      (i.input = false → s.elapsed_time = 0) ∧
      (i.input = true → (h = [] ∨ EndsWith false h) → s.elapsed_time = 0) ∧
      (i.input = true → ∀ pre first run, TrueRun h pre first run →
        s.elapsed_time = min i.pt (elapsed1 first i)) := by
  obtain ⟨s, hs, h1, h2, h3⟩ := ton_last h i
  refine ⟨s, hs, fun a => (h1 a).2, fun a b => (h2 a b).2, ?_⟩
  intro hi pre first run hrun
  rw [(h3 hi _ _ _ hrun).2]
  obtain ⟨c1, c2, -⟩ := clock_pair hc (a := pre) (x := first) (b := run) (y := i) (c := [])
    (by rw [hrun.1])
  rw [wrap_i64_small (by omega)]
  simp only [elapsed1]; omega

/-- **C12**, bounds: with PT >= 0, ET is between 0 and PT. -/
theorem C12_ton_elapsed_bounds (h : List TimerIn) (i : TimerIn) (hc : ClockOk (h ++ [i]))
    (hp : PresetOk [i]) :
    ∃ s, tonAfter (h ++ [i]) = .ok s ∧ 0 ≤ s.elapsed_time ∧ s.elapsed_time ≤ i.pt := by
  obtain ⟨s, hs, h1, h2, h3⟩ := C12_ton_elapsed_time h i hc
  have hpt := hp i (by simp)
  refine ⟨s, hs, ?_⟩
  cases hi : i.input
  · rw [h1 hi]; omega
  · rcases trueRun_exists h with hh | ⟨pre, first, run, hrun⟩
    · rw [h2 hi hh]; omega
    · rw [h3 hi _ _ _ hrun]
      obtain ⟨c1, c2, -⟩ := clock_pair hc (a := pre) (x := first) (b := run) (y := i) (c := [])
        (by rw [hrun.1])
      simp only [elapsed1]; omega

/-- **C12**, monotonicity: while IN stays TRUE with the same PT >= 0, ET does not decrease from one
call to the next. -/
theorem C12_ton_elapsed_monotone (h : List TimerIn) (i j : TimerIn)
    (hc : ClockOk (h ++ [i, j])) (hi : i.input = true) (hj : j.input = true) (hpt : i.pt = j.pt)
    (hp : PresetOk [i, j]) :
    ∃ s s', tonAfter (h ++ [i]) = .ok s ∧ tonAfter (h ++ [i, j]) = .ok s' ∧
      s.elapsed_time ≤ s'.elapsed_time := by
  have ej : h ++ [i, j] = (h ++ [i]) ++ [j] := by simp
  have hci : ClockOk (h ++ [i]) := by
    obtain ⟨c1, c2⟩ := hc
    rw [ej] at c1 c2
    simp only [readings, List.flatMap_append (xs := h ++ [i])] at c1 c2
    exact ⟨(List.pairwise_append.1 c1).1, fun r hr => c2 r (List.mem_append_left _ hr)⟩
  obtain ⟨s, hs, -, h2, h3⟩ := C12_ton_elapsed_time h i hci
  rw [ej] at hc
  obtain ⟨s', hs', -, -, h3'⟩ := C12_ton_elapsed_time (h ++ [i]) j hc
  refine ⟨s, s', hs, by rw [ej]; exact hs', ?_⟩
  have hpi := hp i (by simp)
  rcases trueRun_exists h with hh | ⟨pre, first, run, hrun⟩
  · have hr' : TrueRun (h ++ [i]) h i [] := ⟨by simp, hh, hi, by simp⟩
    rw [h2 hi hh, h3' hj _ _ _ hr']
    obtain ⟨c1, c2, -⟩ := clock_pair hc (a := h) (x := i) (b := []) (y := j) (c := []) (by simp)
    simp only [elapsed1]; omega
  · have hr' : TrueRun (h ++ [i]) pre first (run ++ [i]) := by
      obtain ⟨e, hpre, hf, hr⟩ := hrun
      refine ⟨by simp [e], hpre, hf, ?_⟩
      intro x hx
      rcases List.mem_append.1 hx with hx | hx
      · exact hr x hx
      · have : x = i := by simpa using hx
        rwa [this]
    rw [h3 hi _ _ _ hrun, h3' hj _ _ _ hr']
    obtain ⟨c1, c2, -⟩ := clock_pair hc (a := h) (x := i) (b := []) (y := j) (c := []) (by simp)
    simp only [elapsed1]; omega

example : ClockOk [⟨true, 5, 10, 10⟩, ⟨true, 5, 12, 13⟩] := by
  constructor <;> simp [readings]

/-! ### TOF -/

/-- Every history ends with IN = TRUE, never had IN = TRUE, or ends with a run of FALSE that
follows a TRUE. -/
theorem falseRun_exists (h : List TimerIn) :
    EndsWith true h ∨ (∀ x ∈ h, x.input = false) ∨ ∃ pre first run, FalseRun h pre first run := by
  refine snoc_induction ?_ ?_ h
  · exact .inr (.inl (by simp))
  · intro h i ih
    cases hi : i.input
    · right
      rcases ih with ih | ih | ⟨pre, first, run, e, hp, hf, hr⟩
      · exact .inr ⟨h, i, [], by simp, ih, hi, by simp⟩
      · left
        intro x hx
        rcases List.mem_append.1 hx with hx | hx
        · exact ih x hx
        · have : x = i := by simpa using hx
          rwa [this]
      · refine .inr ⟨pre, first, run ++ [i], by simp [e], hp, hf, ?_⟩
        intro x hx
        rcases List.mem_append.1 hx with hx | hx
        · exact hr x hx
        · have : x = i := by simpa using hx
          rwa [this]
    · exact .inl ⟨h, i, rfl, hi⟩

private theorem falseRun_excl {h pre run : List TimerIn} {first : TimerIn}
    (H : FalseRun h pre first run) : ¬ EndsWith true h ∧ ¬ ∀ x ∈ h, x.input = false := by
  obtain ⟨e, ⟨pre', y, rfl, hy⟩, hf, hr⟩ := H
  subst e
  constructor
  · intro hh
    rcases snoc_cases run with rfl | ⟨run', z, rfl⟩
    · rw [endsWith_snoc, hf] at hh; simp at hh
    · have hz := hr z (by simp)
      rw [show pre' ++ [y] ++ first :: (run' ++ [z]) = (pre' ++ [y] ++ first :: run') ++ [z] by simp,
        endsWith_snoc, hz] at hh
      simp at hh
  · intro hh
    have := hh y (by simp)
    rw [hy] at this; simp at this

private theorem endsTrue_excl {h : List TimerIn} (H : EndsWith true h) :
    ¬ ∀ x ∈ h, x.input = false := by
  obtain ⟨h', x, rfl, hx⟩ := H
  intro hh
  have := hh x (by simp)
  rw [hx] at this; simp at this

private theorem tof_call_rise (s : TimerParams) {i : TimerIn} (hi : i.input = true)
    (h2 : s.input_edge.current_value = false) :
    ∃ s', TOF.call s i = .ok s' ∧ s'.start_time = none ∧ s'.elapsed_time = 0 ∧
      s'.output = true ∧ s'.input_edge.current_value = true :=
  ⟨_, by simp [TOF.call, TOF, hi, input_rising_edge, Signal.rising_edge, h2]; rfl,
    by simp [finish, reset, Signal.set]⟩

private theorem tof_call_stay (s : TimerParams) {i : TimerIn} (hi : i.input = true)
    (h2 : s.input_edge.current_value = true) :
    ∃ s', TOF.call s i = .ok s' ∧ s'.start_time = s.start_time ∧
      s'.elapsed_time = s.elapsed_time ∧
      s'.output = true ∧ s'.input_edge.current_value = true :=
  ⟨_, by simp [TOF.call, TOF, hi, input_rising_edge, Signal.rising_edge, h2]; rfl,
    by simp [finish, Signal.set]⟩

private theorem tof_call_fall (s : TimerParams) {i : TimerIn} (hi : i.input = false)
    (h2 : s.input_edge.current_value = true) :
    ∃ s', TOF.call s i = .ok s' ∧ s'.start_time = some i.t1 ∧ s'.elapsed_time = 0 ∧
      s'.output = true ∧ s'.input_edge.current_value = false :=
  ⟨_, by simp [TOF.call, TOF, hi, input_falling_edge, Signal.falling_edge, h2]; rfl,
    by simp [finish, start, Signal.set]⟩

private theorem tof_call_idle (s : TimerParams) {i : TimerIn} (hi : i.input = false)
    (h1 : s.start_time = none) (h2 : s.input_edge.current_value = false) :
    ∃ s', TOF.call s i = .ok s' ∧ s'.start_time = none ∧ s'.elapsed_time = s.elapsed_time ∧
      s'.output = false ∧ s'.input_edge.current_value = false :=
  ⟨_, by simp [TOF.call, TOF, hi, input_falling_edge, Signal.falling_edge, h2, is_running, h1]; rfl,
    by simp [finish, Signal.set]⟩

private theorem tof_call_run (s : TimerParams) {i : TimerIn} {t0 : Nat} (hi : i.input = false)
    (h1 : s.start_time = some t0) (h2 : s.input_edge.current_value = false) :
    ∃ s', TOF.call s i = .ok s' ∧ s'.start_time = some t0 ∧
      s'.elapsed_time = min i.pt (IntTy.i64.wrap ((i.t1 - t0 : Nat) : Int)) ∧
      s'.output = decide (((i.t2 - t0 : Nat) : Int) ≤ IntTy.u64.wrap i.pt) ∧
      s'.input_edge.current_value = false := by
  refine ⟨_, by simp [TOF.call, TOF, hi, input_falling_edge, Signal.falling_edge, h2, is_running, h1]
                rfl, ?_⟩
  simp [finish, update_elapsed_time, get_run_time, is_in_preset_range, Signal.set]
  congr

private theorem tof_inv (h : List TimerIn) : ∃ s, tofAfter h = .ok s ∧
    (EndsWith true h → s.start_time = none ∧ s.elapsed_time = 0 ∧ s.output = true ∧
      s.input_edge.current_value = true) ∧
    ((∀ x ∈ h, x.input = false) → s.start_time = none ∧ s.elapsed_time = 0 ∧ s.output = false ∧
      s.input_edge.current_value = false) ∧
    (∀ pre first run, FalseRun h pre first run → s.start_time = some first.t1 ∧
      s.input_edge.current_value = false) := by
  refine snoc_induction ?_ ?_ h
  · refine ⟨_, rfl, fun h => absurd h not_endsWith_nil, fun _ => ⟨rfl, rfl, rfl, rfl⟩, ?_⟩
    rintro pre first run ⟨e, _⟩
    simp at e
  · rintro h i ⟨s, hs, h0, h1, h2⟩
    rw [tofAfter, runFB_snoc_ok hs]
    cases hi : i.input
    · have hne : ¬ EndsWith true (h ++ [i]) := by rw [endsWith_snoc, hi]; simp
      rcases falseRun_exists h with hh | hh | ⟨pre, first, run, hrun⟩
      · obtain ⟨a1, a2, a3, a4⟩ := h0 hh
        obtain ⟨s', e, p1, p2, p3, p4⟩ := tof_call_fall s hi a4
        refine ⟨s', e, fun h => absurd h hne, ?_, ?_⟩
        · intro hall
          exact absurd (fun x hx => hall x (List.mem_append_left _ hx)) (endsTrue_excl hh)
        · intro pre first run H
          rcases falseRun_snoc H with ⟨_, _, rfl, _⟩ | ⟨run', rfl, hr, _⟩
          · exact ⟨p1, p4⟩
          · exact absurd hh (falseRun_excl hr).1
      · obtain ⟨a1, a2, a3, a4⟩ := h1 hh
        obtain ⟨s', e, p1, p2, p3, p4⟩ := tof_call_idle s hi a1 a4
        refine ⟨s', e, fun h => absurd h hne, fun _ => ⟨p1, by rw [p2, a2], p3, p4⟩, ?_⟩
        intro pre first run H
        rcases falseRun_snoc H with ⟨_, _, rfl, ht, _⟩ | ⟨run', rfl, hr, _⟩
        · exact absurd hh (endsTrue_excl ht)
        · exact absurd hh (falseRun_excl hr).2
      · obtain ⟨b1, b2⟩ := h2 _ _ _ hrun
        obtain ⟨s', e, p1, p2, p3, p4⟩ := tof_call_run s hi b1 b2
        refine ⟨s', e, fun h => absurd h hne, ?_, ?_⟩
        · intro hall
          exact absurd (fun x hx => hall x (List.mem_append_left _ hx)) (falseRun_excl hrun).2
        · intro pre' first' run' H
          rcases falseRun_snoc H with ⟨_, _, rfl, ht, _⟩ | ⟨run', rfl, hr, _⟩
          · exact absurd ht (falseRun_excl hrun).1
          · obtain ⟨c1, c2⟩ := h2 _ _ _ hr
            rw [b1] at c1
            exact ⟨by rw [p1, c1], p4⟩
    · have hnf : ∀ pre first run, ¬ FalseRun (h ++ [i]) pre first run := by
        intro pre first run H
        rcases falseRun_snoc H with ⟨_, _, _, _, h⟩ | ⟨_, _, _, h⟩ <;> simp [hi] at h
      have hna : ¬ ∀ x ∈ h ++ [i], x.input = false := by
        intro hall; have := hall i (by simp); rw [hi] at this; simp at this
      rcases falseRun_exists h with hh | hh | ⟨pre, first, run, hrun⟩
      · obtain ⟨a1, a2, a3, a4⟩ := h0 hh
        obtain ⟨s', e, p1, p2, p3, p4⟩ := tof_call_stay s hi a4
        exact ⟨s', e, fun _ => ⟨by rw [p1, a1], by rw [p2, a2], p3, p4⟩, fun h => absurd h hna,
          fun _ _ _ H => absurd H (hnf _ _ _)⟩
      · obtain ⟨a1, a2, a3, a4⟩ := h1 hh
        obtain ⟨s', e, p1, p2, p3, p4⟩ := tof_call_rise s hi a4
        exact ⟨s', e, fun _ => ⟨p1, p2, p3, p4⟩, fun h => absurd h hna,
          fun _ _ _ H => absurd H (hnf _ _ _)⟩
      · obtain ⟨b1, b2⟩ := h2 _ _ _ hrun
        obtain ⟨s', e, p1, p2, p3, p4⟩ := tof_call_rise s hi b2
        exact ⟨s', e, fun _ => ⟨p1, p2, p3, p4⟩, fun h => absurd h hna,
          fun _ _ _ H => absurd H (hnf _ _ _)⟩

theorem tof_last (h : List TimerIn) (i : TimerIn) :
    ∃ s, tofAfter (h ++ [i]) = .ok s ∧
      (i.input = true → s.output = true ∧ s.elapsed_time = 0) ∧
      (i.input = false → EndsWith true h → s.output = true ∧ s.elapsed_time = 0) ∧
      (i.input = false → (∀ x ∈ h, x.input = false) → s.output = false ∧ s.elapsed_time = 0) ∧
      (i.input = false → ∀ pre first run, FalseRun h pre first run →
        s.output = decide (((i.t2 - first.t1 : Nat) : Int) ≤ IntTy.u64.wrap i.pt) ∧
        s.elapsed_time = min i.pt (IntTy.i64.wrap ((i.t1 - first.t1 : Nat) : Int))) := by
  obtain ⟨s, hs, h0, h1, h2⟩ := tof_inv h
  obtain ⟨s1, hs1, g0, g1, g2⟩ := tof_inv (h ++ [i])
  refine ⟨s1, hs1, ?_, ?_, ?_, ?_⟩
  · intro hi
    obtain ⟨_, a, b, _⟩ := g0 (endsWith_snoc.2 hi)
    exact ⟨b, a⟩
  · intro hi hh
    obtain ⟨s', e, p1, p2, p3, p4⟩ := tof_call_fall s hi (h0 hh).2.2.2
    rw [tofAfter, runFB_snoc_ok hs, e] at hs1
    obtain rfl : s' = s1 := by simpa using hs1
    exact ⟨p3, p2⟩
  · intro hi hh
    obtain ⟨_, a, b, _⟩ := g1 (by
      intro x hx
      rcases List.mem_append.1 hx with hx | hx
      · exact hh x hx
      · have : x = i := by simpa using hx
        rwa [this])
    exact ⟨b, a⟩
  · intro hi pre first run hrun
    obtain ⟨b1, b2⟩ := h2 _ _ _ hrun
    obtain ⟨s', e, p1, p2, p3, p4⟩ := tof_call_run s hi b1 b2
    rw [tofAfter, runFB_snoc_ok hs, e] at hs1
    obtain rfl : s' = s1 := by simpa using hs1
    exact ⟨p3, p2⟩

/-- **C13**, output: after any history `h` and one more call `i` with PT >= 0, TOF has not panicked,
and Q is TRUE iff IN is TRUE, or this is the first FALSE call after a TRUE one, or `h` ends with a
run of FALSE inputs after a TRUE one whose first call was at most PT ago. -/
theorem C13_tof_output (h : List TimerIn) (i : TimerIn) (hp : PresetOk [i]) :
    ∃ s, tofAfter (h ++ [i]) = .ok s ∧
      (s.output = true ↔ i.input = true ∨ EndsWith true h ∨
        ∃ pre first run, FalseRun h pre first run ∧ elapsed2 first i ≤ i.pt) := by
  obtain ⟨s, hs, h1, h2, h3, h4⟩ := tof_last h i
  refine ⟨s, hs, ?_⟩
  have hpt := hp i (by simp)
  cases hi : i.input
  · rcases falseRun_exists h with hh | hh | ⟨pre, first, run, hrun⟩
    · simp [h2 hi hh, hh]
    · rw [(h3 hi hh).1]
      simp only [Bool.false_eq_true, false_or, false_iff, not_or, not_exists, not_and]
      exact ⟨fun h => endsTrue_excl h hh, fun _ _ _ H => absurd hh (falseRun_excl H).2⟩
    · constructor
      · intro ho
        rw [(h4 hi _ _ _ hrun).1, wrap_pt hpt] at ho
        have := of_decide_eq_true ho
        refine .inr (.inr ⟨pre, first, run, hrun, ?_⟩)
        simp only [elapsed2]; omega
      · rintro (h' | h' | ⟨pre', first', run', hrun', he⟩)
        · simp at h'
        · exact absurd h' (falseRun_excl hrun).1
        · rw [(h4 hi _ _ _ hrun').1, wrap_pt hpt]
          simp only [elapsed2] at he
          apply decide_eq_true; omega
  · simp [h1 hi]

/-- **C13**, elapsed time: ET is 0 while IN is TRUE, in the first FALSE call, and if IN was never
TRUE; afterwards it is min(PT, time since the first FALSE call). -/
theorem C13_tof_elapsed_time (h : List TimerIn) (i : TimerIn) (hc : ClockOk (h ++ [i])) :
    ∃ s, tofAfter (h ++ [i]) = .ok s ∧
      ((i.input = true ∨ EndsWith true h ∨ ∀ x ∈ h, x.input = false) → s.elapsed_time = 0) ∧
      (i.input = false → ∀ pre first run, FalseRun h pre first run →
        s.elapsed_time = min i.pt (elapsed1 first i)) := by
  obtain ⟨s, hs, h1, h2, h3, h4⟩ := tof_last h i
  refine ⟨s, hs, ?_, ?_⟩
  · intro H
    cases hi : i.input
    · rcases H with H | H | H
      · simp [hi] at H
      · exact (h2 hi H).2
      · exact (h3 hi H).2
    · exact (h1 hi).2
  · intro hi pre first run hrun
    rw [(h4 hi _ _ _ hrun).2]
    obtain ⟨c1, c2, -⟩ := clock_pair hc (a := pre) (x := first) (b := run) (y := i) (c := [])
      (by rw [hrun.1])
    rw [wrap_i64_small (by omega)]
    simp only [elapsed1]; omega

example : FalseRun [⟨true, 5, 9, 9⟩, ⟨false, 5, 10, 10⟩, ⟨false, 5, 12, 12⟩] [⟨true, 5, 9, 9⟩]
    ⟨false, 5, 10, 10⟩ [⟨false, 5, 12, 12⟩] ∧
    elapsed2 ⟨false, 5, 10, 10⟩ ⟨false, 5, 15, 15⟩ ≤ 5 :=
  ⟨⟨rfl, ⟨[], _, rfl, rfl⟩, rfl, by simp⟩, by decide⟩

/-! ### TON/TOF: totality and consistency of Q and ET -/

/-- **C17**, totality: no history makes a TON or a TOF panic. -/
theorem C17_ton_tof_never_abort (h : List TimerIn) :
    (∃ s, tonAfter h = .ok s) ∧ (∃ s, tofAfter h = .ok s) := by
  obtain ⟨s, hs, _⟩ := ton_inv h
  obtain ⟨s', hs', _⟩ := tof_inv h
  exact ⟨⟨s, hs⟩, ⟨s', hs'⟩⟩

/-- **C17**, consistency: when the two clock readings of the call coincide, TON's Q = TRUE implies
ET = PT, and TOF's Q = FALSE after a fall implies ET = PT. -/
theorem C17_q_implies_et (h : List TimerIn) (i : TimerIn) (hc : ClockOk (h ++ [i]))
    (hp : PresetOk [i]) (heq : i.t1 = i.t2) :
    (∃ s, tonAfter (h ++ [i]) = .ok s ∧ (s.output = true → s.elapsed_time = i.pt)) ∧
    (∃ s, tofAfter (h ++ [i]) = .ok s ∧
      (s.output = false → (∃ x ∈ h, x.input = true) → s.elapsed_time = i.pt)) := by
  constructor
  · obtain ⟨s, hs, h1⟩ := C11_ton_output h i hp
    obtain ⟨s', hs', -, -, h2⟩ := C12_ton_elapsed_time h i hc
    rw [hs] at hs'
    obtain rfl : s = s' := by simpa using hs'
    refine ⟨s, hs, fun ho => ?_⟩
    obtain ⟨hi, pre, first, run, hrun, he⟩ := h1.1 ho
    rw [h2 hi _ _ _ hrun]
    simp only [elapsed1, elapsed2] at *; omega
  · obtain ⟨s, hs, h1⟩ := C13_tof_output h i hp
    obtain ⟨s', hs', -, h2⟩ := C13_tof_elapsed_time h i hc
    rw [hs] at hs'
    obtain rfl : s = s' := by simpa using hs'
    refine ⟨s, hs, fun ho hx => ?_⟩
    have hno : ¬ (i.input = true ∨ EndsWith true h ∨
        ∃ pre first run, FalseRun h pre first run ∧ elapsed2 first i ≤ i.pt) := by
      rw [← h1, ho]; simp
    simp only [not_or, not_exists, not_and] at hno
    rcases falseRun_exists h with hh | hh | ⟨pre, first, run, hrun⟩
    · exact absurd hh hno.2.1
    · obtain ⟨x, hx, hxt⟩ := hx
      rw [hh x hx] at hxt; simp at hxt
    · have := hno.2.2 _ _ _ hrun
      rw [h2 (by simpa using hno.1) _ _ _ hrun]
      simp only [elapsed1, elapsed2] at *; omega

/-- **C17**, the clock may advance inside a call: the code can then report Q = TRUE with ET < PT. -/
theorem C17_q_true_with_et_below_pt :
    ∃ s, tonAfter [⟨true, 5, 10, 10⟩, ⟨true, 5, 14, 16⟩] = .ok s ∧
      s.output = true ∧ s.elapsed_time = 4 := ⟨_, rfl, by decide, by decide⟩

/-! ### TP -/

private theorem tp_call_start (s : TimerParams) {i : TimerIn} (hi : i.input = true)
    (h1 : s.start_time = none) (h2 : s.input_edge.current_value = false) :
    ∃ s', TP.call s i = .ok s' ∧ s'.start_time = some i.t1 ∧ s'.elapsed_time = 0 ∧
      s'.output = true ∧ s'.input_edge.current_value = true :=
  ⟨_, by simp [TP.call, TP, hi, is_running, h1, input_rising_edge, Signal.rising_edge, h2]; rfl,
    by simp [finish, start, Signal.set]⟩

private theorem tp_call_panic (s : TimerParams) {i : TimerIn} (hi : i.input = false)
    (h1 : s.start_time = none) : TP.call s i = .panic := by
  simp [TP.call, TP, hi, is_running, h1, input_rising_edge, Signal.rising_edge]

/-- A call on a running timer: either it re-arms it, or the timer goes on. -/
private theorem tp_call_run (s : TimerParams) {start i : TimerIn}
    (hpt : 0 ≤ i.pt ∧ i.pt < 2 ^ 63)
    (h1 : s.start_time = some start.t1) :
    ∃ s', TP.call s i = .ok s' ∧ s'.input_edge.current_value = i.input ∧
      (s'.output = true ↔ elapsed2 start i ≤ i.pt) ∧
      (Rearms start s.input_edge.current_value i → s'.start_time = none ∧ s'.elapsed_time = 0) ∧
      (¬ Rearms start s.input_edge.current_value i → s'.start_time = some start.t1 ∧
        s'.elapsed_time = min i.pt (IntTy.i64.wrap ((i.t1 - start.t1 : Nat) : Int))) := by
  obtain ⟨_, _, _, _, ⟨edge⟩, st⟩ := s
  simp only at h1
  subst h1
  by_cases hle : ((i.t2 - start.t1 : Nat) : Int) ≤ IntTy.u64.wrap i.pt
  · have hel : elapsed2 start i ≤ i.pt := by
      rw [wrap_pt hpt] at hle; simp only [elapsed2]; omega
    have hnr : ¬ Rearms start edge i := by
      rintro ⟨_, _, h⟩; omega
    refine ⟨_, by simp [TP.call, TP, is_running, update_elapsed_time, get_run_time,
      is_in_preset_range, hle]; rfl, ?_⟩
    simp [finish, Signal.set, hel, hnr]
  · have hel : ¬ elapsed2 start i ≤ i.pt := by
      rw [wrap_pt hpt] at hle; simp only [elapsed2]; omega
    cases hi : i.input <;> cases edge
    · have hnr : ¬ Rearms start false i := by rintro ⟨h, _⟩; simp at h
      refine ⟨_, by simp [TP.call, TP, is_running, update_elapsed_time, get_run_time,
        is_in_preset_range, hle, input_falling_edge, Signal.falling_edge, hi]; rfl, ?_⟩
      simp [finish, Signal.set, hel, hnr]
    · have hnr : Rearms start true i := ⟨rfl, hi, by omega⟩
      refine ⟨_, by simp [TP.call, TP, is_running, update_elapsed_time, get_run_time,
        is_in_preset_range, hle, input_falling_edge, Signal.falling_edge, hi]; rfl, ?_⟩
      simp [finish, reset, Signal.set, hel, hnr]
    · have hnr : ¬ Rearms start false i := by rintro ⟨h, _⟩; simp at h
      refine ⟨_, by simp [TP.call, TP, is_running, update_elapsed_time, get_run_time,
        is_in_preset_range, hle, input_falling_edge, Signal.falling_edge, hi]; rfl, ?_⟩
      simp [finish, Signal.set, hel, hnr]
    · have hnr : ¬ Rearms start true i := by rintro ⟨_, h, _⟩; simp [hi] at h
      refine ⟨_, by simp [TP.call, TP, is_running, update_elapsed_time, get_run_time,
        is_in_preset_range, hle, input_falling_edge, Signal.falling_edge, hi]; rfl, ?_⟩
      simp [finish, Signal.set, hel, hnr]

private theorem noRearm_snoc {start x : TimerIn} (mid : List TimerIn) :
    ∀ b, NoRearm start b (mid ++ [x]) ↔
      NoRearm start b mid ∧ ¬ Rearms start ((mid.getLast?.map (·.input)).getD b) x := by
  induction mid with
  | nil => intro b; simp [NoRearm]
  | cons y ys ih =>
    intro b
    simp only [List.cons_append, NoRearm, ih, and_assoc]
    cases ys <;> simp [List.getLast?_cons]

private theorem tp_pulse {pre : List TimerIn} {s0 : TimerParams} (hs0 : tpAfter pre = .ok s0)
    (h1 : s0.start_time = none) (h2 : s0.input_edge.current_value = false)
    {start : TimerIn} (hst : start.input = true) (mid : List TimerIn) (hp : PresetOk mid)
    (hn : NoRearm start true mid) :
    ∃ s, tpAfter (pre ++ start :: mid) = .ok s ∧ s.start_time = some start.t1 ∧
      s.input_edge.current_value = lastIn start mid := by
  revert hp hn
  refine snoc_induction ?_ ?_ mid
  · intro _ _
    obtain ⟨s', e, p1, _, _, p4⟩ := tp_call_start s0 hst h1 h2
    exact ⟨s', by rw [tpAfter, runFB_snoc_ok hs0, e], p1, by simp [p4, lastIn, hst]⟩
  · intro mid x ih hp hn
    rw [noRearm_snoc] at hn
    obtain ⟨s, hs, g1, g2⟩ := ih (fun y hy => hp y (by simp [hy])) hn.1
    obtain ⟨s', e, q1, _, _, q4⟩ := tp_call_run s (start := start) (hp x (by simp)) g1
    have hlast : lastIn start mid = (mid.getLast?.map (·.input)).getD true := by
      simp [lastIn, hst]
    rw [← hlast, ← g2] at hn
    refine ⟨s', ?_, (q4 hn.2).1, by simp [q1, lastIn]⟩
    rw [show pre ++ start :: (mid ++ [x]) = (pre ++ start :: mid) ++ [x] by simp, tpAfter,
      runFB_snoc_ok hs, e]

private theorem tpIdle_state {h : List TimerIn} (H : TPIdle h) (hp : PresetOk h) :
    ∃ s, tpAfter h = .ok s ∧ s.start_time = none ∧ s.input_edge.current_value = false ∧
      s.elapsed_time = 0 ∧ s.output = false := by
  induction H with
  | fresh => exact ⟨_, rfl, rfl, rfl, rfl, rfl⟩
  | @rearmed pre mid start x _ hst hn hr ih =>
    obtain ⟨s0, hs0, a1, a2, -, -⟩ := ih (fun y hy => hp y (by simp [hy]))
    obtain ⟨s, hs, b1, b2⟩ := tp_pulse hs0 a1 a2 hst mid (fun y hy => hp y (by simp [hy])) hn
    obtain ⟨s', e, q1, q2, q3, _⟩ := tp_call_run s (start := start) (i := x) (hp x (by simp)) b1
    rw [b2] at q3
    refine ⟨s', by rw [tpAfter, runFB_snoc_ok hs, e], (q3 hr).1, by rw [q1, hr.2.1], (q3 hr).2, ?_⟩
    have := hr.2.2
    cases ho : s'.output
    · rfl
    · have := q2.1 ho; omega

/-- Q during a pulse, for clock readings that need not be in order. -/
theorem tp_pulse_output (pre mid : List TimerIn) (start x : TimerIn) (hidle : TPIdle pre)
    (hst : start.input = true) (hn : NoRearm start true mid)
    (hp : PresetOk (pre ++ start :: mid ++ [x])) :
    ∃ s, tpAfter (pre ++ start :: mid ++ [x]) = .ok s ∧
      (s.output = true ↔ elapsed2 start x ≤ x.pt) := by
  obtain ⟨s0, hs0, a1, a2, -, -⟩ := tpIdle_state hidle (fun y hy => hp y (by simp [hy]))
  obtain ⟨s, hs, b1, b2⟩ := tp_pulse hs0 a1 a2 hst mid (fun y hy => hp y (by simp [hy])) hn
  obtain ⟨s', e, q1, q2, -, -⟩ := tp_call_run s (start := start) (i := x) (hp x (by simp)) b1
  exact ⟨s', by rw [tpAfter, runFB_snoc_ok hs, e], q2⟩

/-- **C15.** A TP timer is idle after `pre`; the call `start` (IN = TRUE) starts a pulse; none of
the calls `mid` re-arms it. Then no call has panicked and in the next call `x` — whatever IN did
and does — Q is TRUE iff at most PT has elapsed since the start, and ET = min(PT, elapsed) unless
`x` itself re-arms the timer, which sets ET to 0. -/
theorem C15_tp_pulse (pre mid : List TimerIn) (start x : TimerIn) (hidle : TPIdle pre)
    (hst : start.input = true) (hn : NoRearm start true mid)
    (hp : PresetOk (pre ++ start :: mid ++ [x])) (hc : ClockOk (pre ++ start :: mid ++ [x])) :
    ∃ s, tpAfter (pre ++ start :: mid ++ [x]) = .ok s ∧
      (s.output = true ↔ elapsed2 start x ≤ x.pt) ∧
      (¬ Rearms start (lastIn start mid) x → s.elapsed_time = min x.pt (elapsed1 start x)) ∧
      (Rearms start (lastIn start mid) x → s.elapsed_time = 0) := by
  obtain ⟨s0, hs0, a1, a2, -, -⟩ := tpIdle_state hidle (fun y hy => hp y (by simp [hy]))
  obtain ⟨s, hs, b1, b2⟩ := tp_pulse hs0 a1 a2 hst mid (fun y hy => hp y (by simp [hy])) hn
  obtain ⟨s', e, q1, q2, q3, q4⟩ := tp_call_run s (start := start) (i := x) (hp x (by simp)) b1
  rw [b2] at q3 q4
  refine ⟨s', by rw [tpAfter, runFB_snoc_ok hs, e], q2, fun h => ?_, fun h => (q3 h).2⟩
  rw [(q4 h).2]
  obtain ⟨c1, c2, -⟩ := clock_pair hc (a := pre) (x := start) (b := mid) (y := x) (c := []) rfl
  rw [wrap_i64_small (by omega)]
  simp only [elapsed1]; omega

/-- **C15**, the start call: an idle timer called with IN = TRUE sets Q and ET = 0. -/
theorem C15_tp_start (pre : List TimerIn) (start : TimerIn) (hidle : TPIdle pre)
    (hst : start.input = true) (hp : PresetOk pre) :
    ∃ s, tpAfter (pre ++ [start]) = .ok s ∧ s.output = true ∧ s.elapsed_time = 0 := by
  obtain ⟨s0, hs0, a1, a2, -, -⟩ := tpIdle_state hidle hp
  obtain ⟨s', e, _, p2, p3, _⟩ := tp_call_start s0 hst a1 a2
  exact ⟨s', by rw [tpAfter, runFB_snoc_ok hs0, e], p3, p2⟩

/-- IN drops during the pulse (at 12) and the pulse goes on until 15. -/
example : NoRearm ⟨true, 5, 10, 10⟩ true [⟨false, 5, 12, 12⟩, ⟨true, 5, 13, 13⟩] ∧
    elapsed2 ⟨true, 5, 10, 10⟩ ⟨false, 5, 15, 15⟩ ≤ 5 := by
  refine ⟨⟨?_, ?_, trivial⟩, by decide⟩
  · rintro ⟨_, _, h⟩; exact absurd h (by decide)
  · rintro ⟨_, _, h⟩; exact absurd h (by decide)

/-- **C14 is false**: calling a fresh TP timer once with IN = FALSE panics. -/
theorem C14_refuted : ¬ ∀ h : List TimerIn, tpAfter h ≠ .panic := by
  intro H
  exact H [⟨false, 1000, 0, 0⟩] rfl

/-- Every TP history is idle, in a pulse, or contains a call with IN = FALSE on an idle timer. -/
private theorem tp_trichotomy (h : List TimerIn) :
    TPIdle h ∨
    (∃ pre start mid, h = pre ++ start :: mid ∧ TPIdle pre ∧ start.input = true ∧
      NoRearm start true mid) ∨
    (∃ pre x rest, h = pre ++ x :: rest ∧ TPIdle pre ∧ x.input = false) := by
  refine snoc_induction ?_ ?_ h
  · exact .inl .fresh
  · intro h i ih
    rcases ih with ih | ⟨pre, start, mid, rfl, a, b, c⟩ | ⟨pre, x, rest, rfl, a, b⟩
    · cases hi : i.input
      · exact .inr (.inr ⟨h, i, [], by simp, ih, hi⟩)
      · exact .inr (.inl ⟨h, i, [], by simp, ih, hi, trivial⟩)
    · by_cases hr : Rearms start (lastIn start mid) i
      · exact .inl (.rearmed a b c hr)
      · refine .inr (.inl ⟨pre, start, mid ++ [i], by simp, a, b, ?_⟩)
        rw [noRearm_snoc]
        refine ⟨c, ?_⟩
        simpa [lastIn, b] using hr
    · exact .inr (.inr ⟨pre, x, rest ++ [i], by simp, a, b⟩)

/-- **C14, what holds.** A history panics exactly if at some point the timer was idle (fresh, or
just re-armed) and was called with IN = FALSE. -/
theorem C14_partial (h : List TimerIn) (hp : PresetOk h) :
    tpAfter h = .panic ↔
      ∃ pre x rest, h = pre ++ x :: rest ∧ TPIdle pre ∧ x.input = false := by
  constructor
  · intro hpan
    rcases tp_trichotomy h with hh | ⟨pre, start, mid, rfl, a, b, c⟩ | hh
    · obtain ⟨s, hs, _⟩ := tpIdle_state hh hp
      rw [hs] at hpan; simp at hpan
    · obtain ⟨s0, hs0, a1, a2, -, -⟩ := tpIdle_state a (fun y hy => hp y (by simp [hy]))
      obtain ⟨s, hs, _⟩ := tp_pulse hs0 a1 a2 b mid (fun y hy => hp y (by simp [hy])) c
      rw [hs] at hpan; simp at hpan
    · exact hh
  · rintro ⟨pre, x, rest, rfl, a, b⟩
    obtain ⟨s0, hs0, a1, a2, -, -⟩ := tpIdle_state a (fun y hy => hp y (by simp [hy]))
    rw [tpAfter, runFB_append, show runFB TP.call TimerParams.default pre = _ from hs0]
    simp [tp_call_panic s0 b a1]

/-- The idle predicate is met by non-empty histories too: a pulse of 5 that expired and whose IN
fell after expiry. -/
example : TPIdle ([] ++ ⟨true, 5, 10, 10⟩ :: [⟨true, 5, 12, 12⟩] ++ [⟨false, 5, 16, 16⟩]) := by
  refine .rearmed .fresh rfl ⟨?_, trivial⟩ ⟨rfl, rfl, by decide⟩
  rintro ⟨_, h, _⟩; exact absurd h (by decide)

/-- The claim of C16: a pulse was started on an idle timer; a later call `x` has IN = FALSE and the
pulse has expired; then the next call `y` with IN = TRUE starts a new pulse. -/
def NextEdgeRetriggers : Prop :=
  ∀ (pre mid : List TimerIn) (start x y : TimerIn), TPIdle pre → start.input = true →
    NoRearm start true mid → x.input = false → elapsed2 start x > x.pt → y.input = true →
    PresetOk (pre ++ start :: mid ++ [x, y]) → ClockOk (pre ++ start :: mid ++ [x, y]) →
    ∃ s, tpAfter (pre ++ start :: mid ++ [x, y]) = .ok s ∧ s.output = true ∧ s.elapsed_time = 0

/-- **C16 is false**: if IN falls while the pulse is still running, the timer is not re-armed and
the next rising edge (at 17) is lost. -/
theorem C16_refuted : ¬ NextEdgeRetriggers := by
  intro H
  have hc : ClockOk ([] ++ ⟨true, 5, 10, 10⟩ :: [⟨false, 5, 12, 12⟩] ++
      [⟨false, 5, 16, 16⟩, ⟨true, 5, 17, 17⟩]) := by
    constructor <;> simp [readings]
  obtain ⟨s, hs, ho, _⟩ := H [] [⟨false, 5, 12, 12⟩] ⟨true, 5, 10, 10⟩ ⟨false, 5, 16, 16⟩
    ⟨true, 5, 17, 17⟩ .fresh rfl
    ⟨by rintro ⟨_, _, h⟩; exact absurd h (by decide), trivial⟩ rfl (by decide) rfl
    (by simp [PresetOk]) hc
  have : s.output = false := by
    have h2 : tpAfter ([] ++ (⟨true, 5, 10, 10⟩ : TimerIn) :: [⟨false, 5, 12, 12⟩] ++
      [⟨false, 5, 16, 16⟩, ⟨true, 5, 17, 17⟩]) =
      .ok ⟨true, 5, false, 5, ⟨true⟩, some 10⟩ := by decide
    rw [h2] at hs
    simp only [Res.ok.injEq] at hs
    rw [← hs]
  rw [this] at ho; simp at ho

/-- **C16, what holds.** If IN was still TRUE in the call before `x` (so that `x` is the falling
edge, after expiry), the call `y` with IN = TRUE starts a new pulse: Q is TRUE and ET is 0, and the
pulse is timed from `y`. -/
theorem C16_partial (pre mid : List TimerIn) (start x y : TimerIn) (hidle : TPIdle pre)
    (hst : start.input = true) (hn : NoRearm start true mid) (hprev : lastIn start mid = true)
    (hx : x.input = false) (hexp : elapsed2 start x > x.pt) (hy : y.input = true)
    (hp : PresetOk (pre ++ start :: mid ++ [x])) :
    TPIdle (pre ++ start :: mid ++ [x]) ∧
    ∃ s, tpAfter (pre ++ start :: mid ++ [x] ++ [y]) = .ok s ∧ s.output = true ∧
      s.elapsed_time = 0 := by
  have hid : TPIdle (pre ++ start :: mid ++ [x]) := .rearmed hidle hst hn ⟨hprev, hx, hexp⟩
  exact ⟨hid, C15_tp_start _ y hid hy hp⟩

example : lastIn ⟨true, 5, 10, 10⟩ [⟨true, 5, 12, 12⟩] = true := rfl

/-- **C16, exactly.** After the pulse has expired and IN is FALSE (call `x`), a rising edge (call `y`) starts a new pulse iff IN was
TRUE in the call before `x`, that is, iff `x` itself was the falling edge. -/
theorem C16_partial_iff (pre mid : List TimerIn) (start x y : TimerIn) (hidle : TPIdle pre)
    (hst : start.input = true) (hn : NoRearm start true mid) (hx : x.input = false) (hexp : elapsed2 start x > x.pt)
    (hy : y.input = true) (hp : PresetOk (pre ++ start :: mid ++ [x, y])) (hc : ClockOk (pre ++ start :: mid ++ [x, y])) :
    (∃ s, tpAfter (pre ++ start :: mid ++ [x, y]) = .ok s ∧ s.output = true ∧ s.elapsed_time = 0) ↔ lastIn start mid = true := by
  constructor
  · rintro ⟨s, hs, ho, he⟩
    refine Classical.byContradiction fun hf => ?_
    have hnr : NoRearm start true (mid ++ [x]) := by
      exact (noRearm_snoc mid true).2 ⟨hn, fun h => hf (by rw [lastIn, hst]; exact h.1)⟩
    have e : pre ++ start :: mid ++ [x, y] = pre ++ start :: (mid ++ [x]) ++ [y] := by simp
    rw [e] at hs hp hc
    obtain ⟨s', hs', h1, h2, -⟩ := C15_tp_pulse pre (mid ++ [x]) start y hidle hst hnr hp hc
    obtain rfl : s' = s := by rw [hs'] at hs; exact Res.ok.inj hs
    have hq := h1.1 ho
    have ht := h2 (fun h => by have := h.2.1; rw [hy] at this; cases this)
    have hr := hc.1
    have hxp := hp x (by simp)
    have hyp := hp y (by simp)
    have hle : x.t2 ≤ y.t1 ∧ y.t1 ≤ y.t2 := by
      simp only [readings, List.flatMap_append, List.flatMap_cons, List.flatMap_nil, List.pairwise_append, List.pairwise_cons] at hr
      refine ⟨?_, ?_⟩
      · exact hr.2.2 x.t2 (by simp) y.t1 (by simp)
      · exact hr.2.1.1.1 y.t2 (by simp)
    unfold elapsed2 elapsed1 at *
    rw [ht] at he
    omega
  · intro hl
    have := (C16_partial pre mid start x y hidle hst hn hl hx hexp hy (fun z hz => hp z (by simp at hz ⊢; rcases hz with h | h | h | h <;> simp [h]))).2
    simpa using this

/-- Both sides occur: IN falling in the call that finds the pulse expired, and IN falling before it. -/
example : let start : TimerIn := ⟨true, 5, 10, 10⟩; let x : TimerIn := ⟨false, 5, 16, 16⟩
    let y : TimerIn := ⟨true, 5, 17, 17⟩
    NoRearm start true [⟨true, 5, 12, 12⟩] ∧ NoRearm start true [⟨false, 5, 12, 12⟩] ∧ elapsed2 start x > x.pt ∧
    lastIn start [⟨true, 5, 12, 12⟩] = true ∧ lastIn start [⟨false, 5, 12, 12⟩] = false ∧
    PresetOk ([] ++ start :: [⟨false, 5, 12, 12⟩] ++ [x, y]) ∧ ClockOk ([] ++ start :: [⟨false, 5, 12, 12⟩] ++ [x, y]) := by
  simp [NoRearm, Rearms, elapsed2, lastIn, PresetOk, ClockOk, readings]

/-! ### Negative preset -/

/-- **C69.** A negative PT acts as a preset of about 584 years: TON never switches on, and TOF never
switches off after a fall, on any clock below 2^63 ns. -/
theorem C69_negative_preset_never_expires (h : List TimerIn) (i : TimerIn)
    (hc : ClockOk (h ++ [i])) (hneg : i.pt < 0 ∧ -(2 ^ 63) ≤ i.pt) :
    (∃ s, tonAfter (h ++ [i]) = .ok s ∧ s.output = false) ∧
    (∃ s, tofAfter (h ++ [i]) = .ok s ∧ (s.output = true ↔ ∃ x ∈ h ++ [i], x.input = true)) := by
  have hw : (2 : Int) ^ 63 ≤ IntTy.u64.wrap i.pt := by
    simp only [IntTy.wrap, IntTy.u64, Bool.false_eq_true, if_false]
    omega
  have ht2 : i.t2 < 2 ^ 63 := hc.2 i.t2 (by simp [readings])
  constructor
  · obtain ⟨s, hs, h1, h2, h3⟩ := ton_last h i
    refine ⟨s, hs, ?_⟩
    cases hi : i.input
    · exact (h1 hi).1
    · rcases trueRun_exists h with hh | ⟨pre, first, run, hrun⟩
      · exact (h2 hi hh).1
      · rw [(h3 hi _ _ _ hrun).1]
        apply decide_eq_false; omega
  · obtain ⟨s, hs, h1, h2, h3, h4⟩ := tof_last h i
    refine ⟨s, hs, ?_⟩
    cases hi : i.input
    · rcases falseRun_exists h with hh | hh | ⟨pre, first, run, hrun⟩
      · rw [(h2 hi hh).1]
        obtain ⟨h', x, rfl, hx⟩ := hh
        simp only [true_iff]
        exact ⟨x, by simp, hx⟩
      · rw [(h3 hi hh).1]
        simp only [Bool.false_eq_true, false_iff, not_exists, not_and]
        intro x hx
        rcases List.mem_append.1 hx with hx | hx
        · simp [hh x hx]
        · have : x = i := by simpa using hx
          simp [this, hi]
      · rw [(h4 hi _ _ _ hrun).1]
        have hd : ((i.t2 - first.t1 : Nat) : Int) ≤ IntTy.u64.wrap i.pt := by omega
        rw [decide_eq_true hd]
        obtain ⟨e, ⟨pre', y, rfl, hy⟩, _⟩ := hrun
        simp only [true_iff]
        exact ⟨y, by rw [e]; simp, hy⟩
    · rw [(h1 hi).1]
      simp only [true_iff]
      exact ⟨i, by simp, hi⟩

end Verif
