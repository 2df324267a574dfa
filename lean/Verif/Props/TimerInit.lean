import Verif.Spec.Timers
import Verif.Proofs.Lists
/-
C100: timers in zero-initialised memory.
-/
namespace Verif
open Spec TimerParams

/-- A new timer behaves like one that has not been started, whatever the toolchain: same outcome after every history. -/
def ZeroedIsIdle (call : TimerParams → TimerIn → Res TimerParams) : Prop :=
  ∀ (l : InstantLayout) (h : List TimerIn), runFB call (zeroed l) h = runFB call TimerParams.default h

/-- **C100** is false of the code for all three timers. With the niche layout the first call of a TON with IN = TRUE switches
Q on although PT = 1 s has not elapsed; a TOF that has never seen TRUE has Q = TRUE (clock at 2 s, PT = 3 s);
the first pulse of a TP is lost. -/
theorem C100_refuted : ¬ ZeroedIsIdle TON.call ∧ ¬ ZeroedIsIdle TOF.call ∧ ¬ ZeroedIsIdle TP.call := by
  refine ⟨fun h => ?_, fun h => ?_, fun h => ?_⟩
  · have := h .niche [⟨true, 1000000000, 2000000000, 2000000000⟩]
    exact absurd this (by decide)
  · have := h .niche [⟨false, 3000000000, 2000000000, 2000000000⟩]
    exact absurd this (by decide)
  · have := h .niche [⟨true, 1000000000, 2000000000, 2000000000⟩]
    exact absurd this (by decide)

/-- The observable outputs in the three cases of `C100_refuted`. -/
example :
    (∃ s, runFB TON.call (zeroed .niche) [⟨true, 1000000000, 2000000000, 2000000000⟩] = .ok s ∧ s.output = true) ∧
    (∃ s, runFB TOF.call (zeroed .niche) [⟨false, 3000000000, 2000000000, 2000000000⟩] = .ok s ∧ s.output = true) ∧
    (∃ s, runFB TP.call (zeroed .niche) [⟨true, 1000000000, 2000000000, 2000000000⟩] = .ok s ∧ s.output = false) :=
  ⟨⟨_, rfl, by decide⟩, ⟨_, rfl, by decide⟩, ⟨_, rfl, by decide⟩⟩

private theorem wrap_pt {pt : Int} (h : 0 ≤ pt ∧ pt < 2 ^ 63) : IntTy.u64.wrap pt = pt := by
  simp only [IntTy.wrap, IntTy.u64, Bool.false_eq_true, if_false]
  omega

private theorem wrap_i64_small {d : Nat} (h : d < 2 ^ 63) : IntTy.i64.wrap d = d := by
  simp only [IntTy.wrap, IntTy.i64, if_true]
  rw [Int.bmod_def]
  have : ((2 ^ 64 : Nat) : Int) = 18446744073709551616 := by decide
  rw [this]
  split <;> omega

/-! ### Tagged layout -/

/-- **C100**, the part that holds: with the tagged layout the zeroed instance is the fresh one of C11-C17. -/
theorem C100_tagged_partial :
    (∀ h, runFB TON.call (zeroed .tagged) h = runFB TON.call TimerParams.default h) ∧
    (∀ h, runFB TOF.call (zeroed .tagged) h = runFB TOF.call TimerParams.default h) ∧
    (∀ h, runFB TP.call (zeroed .tagged) h = runFB TP.call TimerParams.default h) :=
  ⟨fun _ => rfl, fun _ => rfl, fun _ => rfl⟩

/-! ### TON -/

private theorem ton_reset (a b : TimerParams) {x : TimerIn} (hx : x.input = false) : TON.call a x = TON.call b x := by
  simp [TON.call, TON, hx, finish, TimerParams.reset, Signal.set]

/-- A TON whose start time is set and that is called with IN = TRUE. -/
private theorem ton_run (s : TimerParams) (t0 : Nat) (hs : s.start_time = some t0) {i : TimerIn} (hi : i.input = true) :
    ∃ s', TON.call s i = .ok s' ∧ s'.start_time = some t0 ∧
      s'.output = !decide (((i.t2 - t0 : Nat) : Int) ≤ IntTy.u64.wrap i.pt) ∧
      s'.elapsed_time = min i.pt (IntTy.i64.wrap ((i.t1 - t0 : Nat) : Int)) := by
  refine ⟨_, by simp [TON.call, TON, hi, is_running, hs]; rfl, ?_⟩
  simp [finish, update_elapsed_time, get_run_time, is_in_preset_range]
  congr

private theorem ton_started (t0 : Nat) : ∀ (h : List TimerIn) (s : TimerParams), s.start_time = some t0 →
    (∀ x ∈ h, x.input = true) → ∃ s', runFB TON.call s h = .ok s' ∧ s'.start_time = some t0
  | [], s, hs, _ => ⟨s, rfl, hs⟩
  | x :: xs, s, hs, hx => by
    obtain ⟨s1, e, h1, -⟩ := ton_run s t0 hs (hx x (by simp))
    obtain ⟨s2, e2, h2⟩ := ton_started t0 xs s1 h1 (fun y hy => hx y (by simp [hy]))
    exact ⟨s2, by rw [runFB_cons, e, Res.bind_ok, e2], h2⟩

private theorem ton_total (s : TimerParams) (i : TimerIn) : ∃ s', TON.call s i = .ok s' := by
  unfold TON.call TON
  dsimp only
  split
  · split
    · exact ⟨_, rfl⟩
    · split
      · exact ⟨_, rfl⟩
      · exact ⟨_, rfl⟩
  · exact ⟨_, rfl⟩

private theorem ton_merge : ∀ (h : List TimerIn) (a b : TimerParams), (∃ x ∈ h, x.input = false) →
    runFB TON.call a h = runFB TON.call b h
  | [], _, _, ⟨_, hx, _⟩ => by simp at hx
  | y :: ys, a, b, ⟨x, hx, hxf⟩ => by
    cases hy : y.input
    · rw [runFB_cons, runFB_cons, ton_reset a b hy]
    · obtain ⟨a', ea⟩ := ton_total a y
      obtain ⟨b', eb⟩ := ton_total b y
      rw [runFB_cons, runFB_cons, ea, eb, Res.bind_ok, Res.bind_ok]
      refine ton_merge ys a' b' ⟨x, ?_, hxf⟩
      rcases List.mem_cons.1 hx with rfl | h
      · rw [hy] at hxf; simp at hxf
      · exact h

/-- **C100**, TON with the niche layout: once a call had IN = FALSE, the instance is like a fresh one; as long as IN has been TRUE in
every call, it behaves as if it had been started at the origin of the clock. -/
theorem C100_ton_partial :
    (∀ h : List TimerIn, (∃ x ∈ h, x.input = false) →
      runFB TON.call (zeroed .niche) h = runFB TON.call TimerParams.default h) ∧
    (∀ (h : List TimerIn) (i : TimerIn), (∀ x ∈ h, x.input = true) → i.input = true → PresetOk [i] → ClockOk [i] →
      ∃ s, runFB TON.call (zeroed .niche) (h ++ [i]) = .ok s ∧ (s.output = true ↔ (i.t2 : Int) > i.pt) ∧
        s.elapsed_time = min i.pt i.t1) := by
  refine ⟨fun h hx => ton_merge h _ _ hx, fun h i hh hi hp hc => ?_⟩
  obtain ⟨s, hs, h0⟩ := ton_started 0 h (zeroed .niche) rfl hh
  obtain ⟨s', e, -, h1, h2⟩ := ton_run s 0 h0 hi
  refine ⟨s', by rw [runFB_snoc_ok hs, e], ?_, ?_⟩
  · rw [h1, wrap_pt (hp i (by simp))]
    simp
  · rw [h2, Nat.sub_zero, wrap_i64_small (hc.2 i.t1 (by simp [readings]))]

example : (∃ x ∈ [(⟨true, 5, 10, 10⟩ : TimerIn), ⟨false, 5, 12, 12⟩], x.input = false) ∧
    PresetOk [⟨true, 5, 10, 10⟩] ∧ ClockOk [⟨true, 5, 10, 10⟩] := by
  simp [PresetOk, ClockOk, readings]

/-! ### TOF -/

/-- The first TRUE of a TOF. -/
private theorem tof_rise (a b : TimerParams) {x : TimerIn} (hx : x.input = true)
    (ha : a.input_edge.current_value = false) (hb : b.input_edge.current_value = false) :
    TOF.call a x = TOF.call b x := by
  simp [TOF.call, TOF, hx, finish, TimerParams.reset, Signal.set, input_rising_edge, Signal.rising_edge, ha, hb]

private theorem tof_wait (s : TimerParams) (hs : s.input_edge.current_value = false) {i : TimerIn} (hi : i.input = false) :
    ∃ s', TOF.call s i = .ok s' ∧ s'.start_time = s.start_time ∧ s'.input_edge.current_value = false := by
  cases h : s.start_time
  · exact ⟨_, by simp [TOF.call, TOF, hi, input_falling_edge, Signal.falling_edge, hs, is_running, h]; rfl,
      by simp [finish, Signal.set]⟩
  · refine ⟨_, by simp [TOF.call, TOF, hi, input_falling_edge, Signal.falling_edge, hs, is_running, h]; rfl, ?_⟩
    simp [finish, update_elapsed_time, get_run_time, Signal.set]

private theorem tof_run (s : TimerParams) (t0 : Nat) (h0 : s.start_time = some t0) (hs : s.input_edge.current_value = false)
    {i : TimerIn} (hi : i.input = false) :
    ∃ s', TOF.call s i = .ok s' ∧
      s'.output = decide (((i.t2 - t0 : Nat) : Int) ≤ IntTy.u64.wrap i.pt) ∧
      s'.elapsed_time = min i.pt (IntTy.i64.wrap ((i.t1 - t0 : Nat) : Int)) := by
  refine ⟨_, by simp [TOF.call, TOF, hi, input_falling_edge, Signal.falling_edge, hs, is_running, h0]; rfl, ?_⟩
  simp [finish, update_elapsed_time, get_run_time, is_in_preset_range]
  congr

private theorem tof_waits : ∀ (h : List TimerIn) (s : TimerParams), s.input_edge.current_value = false →
    (∀ x ∈ h, x.input = false) →
    ∃ s', runFB TOF.call s h = .ok s' ∧ s'.start_time = s.start_time ∧ s'.input_edge.current_value = false
  | [], s, hs, _ => ⟨s, rfl, rfl, hs⟩
  | x :: xs, s, hs, hx => by
    obtain ⟨s1, e, h1, h1'⟩ := tof_wait s hs (hx x (by simp))
    obtain ⟨s2, e2, h2, h2'⟩ := tof_waits xs s1 h1' (fun y hy => hx y (by simp [hy]))
    exact ⟨s2, by rw [runFB_cons, e, Res.bind_ok, e2], h2.trans h1, h2'⟩

private theorem tof_merge : ∀ (h : List TimerIn) (a b : TimerParams), a.input_edge.current_value = false →
    b.input_edge.current_value = false → (∃ x ∈ h, x.input = true) →
    runFB TOF.call a h = runFB TOF.call b h
  | [], _, _, _, _, ⟨_, hx, _⟩ => by simp at hx
  | y :: ys, a, b, ha, hb, ⟨x, hx, hxt⟩ => by
    cases hy : y.input
    · obtain ⟨a', ea, -, ha'⟩ := tof_wait a ha hy
      obtain ⟨b', eb, -, hb'⟩ := tof_wait b hb hy
      rw [runFB_cons, runFB_cons, ea, eb, Res.bind_ok, Res.bind_ok]
      refine tof_merge ys a' b' ha' hb' ⟨x, ?_, hxt⟩
      rcases List.mem_cons.1 hx with rfl | h
      · rw [hy] at hxt; simp at hxt
      · exact h
    · rw [runFB_cons, runFB_cons, tof_rise a b hy ha hb]

/-- **C100**, TOF with the niche layout: once a call had IN = TRUE, the instance is like a fresh one; as long as IN has been FALSE in
every call, it behaves as if IN had fallen at the origin of the clock. -/
theorem C100_tof_partial :
    (∀ h : List TimerIn, (∃ x ∈ h, x.input = true) →
      runFB TOF.call (zeroed .niche) h = runFB TOF.call TimerParams.default h) ∧
    (∀ (h : List TimerIn) (i : TimerIn), (∀ x ∈ h, x.input = false) → i.input = false → PresetOk [i] → ClockOk [i] →
      ∃ s, runFB TOF.call (zeroed .niche) (h ++ [i]) = .ok s ∧ (s.output = true ↔ (i.t2 : Int) ≤ i.pt) ∧
        s.elapsed_time = min i.pt i.t1) := by
  refine ⟨fun h hx => tof_merge h _ _ rfl rfl hx, fun h i hh hi hp hc => ?_⟩
  obtain ⟨s, hs, h0, h0'⟩ := tof_waits h (zeroed .niche) rfl hh
  obtain ⟨s', e, h1, h2⟩ := tof_run s 0 h0 h0' hi
  refine ⟨s', by rw [runFB_snoc_ok hs, e], ?_, ?_⟩
  · rw [h1, wrap_pt (hp i (by simp))]
    simp
  · rw [h2, Nat.sub_zero, wrap_i64_small (hc.2 i.t1 (by simp [readings]))]

example : PresetOk [⟨false, 5, 10, 10⟩] ∧ ClockOk [⟨false, 5, 10, 10⟩] := by
  simp [PresetOk, ClockOk, readings]

/-! ### TP -/

/-- A pulse that began at the origin of the clock. -/
def atOrigin : TimerIn := ⟨false, 0, 0, 0⟩

private theorem tp_run (s : TimerParams) (hs : s.start_time = some 0) {i : TimerIn} (hpt : 0 ≤ i.pt ∧ i.pt < 2 ^ 63) :
    ∃ s', TP.call s i = .ok s' ∧ s'.input_edge.current_value = i.input ∧
      (s'.output = true ↔ (i.t2 : Int) ≤ i.pt) ∧
      (¬ Rearms atOrigin s.input_edge.current_value i → s'.start_time = some 0 ∧
        s'.elapsed_time = min i.pt (IntTy.i64.wrap (i.t1 : Int))) ∧
      (Rearms atOrigin s.input_edge.current_value i →
        s' = { TimerParams.default with preset_time := i.pt }) := by
  obtain ⟨_, _, _, _, ⟨edge⟩, st⟩ := s
  simp only at hs
  subst hs
  have hR : ∀ b, Rearms atOrigin b i ↔ b = true ∧ i.input = false ∧ i.pt < (i.t2 : Int) := by
    intro b; simp [Rearms, elapsed2, atOrigin]
  by_cases hle : (i.t2 : Int) ≤ i.pt
  · have h' : (i.t2 : Int) ≤ IntTy.u64.wrap i.pt := by rw [wrap_pt hpt]; exact hle
    have hnr : ¬ Rearms atOrigin edge i := by rw [hR]; omega
    refine ⟨_, by simp [TP.call, TP, is_running, update_elapsed_time, get_run_time, is_in_preset_range, h']; rfl, ?_⟩
    simp [finish, Signal.set, hle, hnr]
  · have h' : ¬ (i.t2 : Int) ≤ IntTy.u64.wrap i.pt := by rw [wrap_pt hpt]; exact hle
    cases hi : i.input <;> cases edge
    all_goals
      refine ⟨_, by simp [TP.call, TP, is_running, update_elapsed_time, get_run_time,
        is_in_preset_range, h', input_falling_edge, Signal.falling_edge, hi]; rfl, ?_⟩
      simp [finish, TimerParams.reset, Signal.set, hle, hR, hi, TimerParams.default]
    all_goals first | omega | exact fun _ => rfl

/-- IN of the last call of `h`; FALSE if there is none. -/
def lastInput (h : List TimerIn) : Bool := (h.getLast?.map (·.input)).getD false

private theorem noRearm_snoc {start x : TimerIn} (mid : List TimerIn) :
    ∀ b, NoRearm start b (mid ++ [x]) ↔
      NoRearm start b mid ∧ ¬ Rearms start ((mid.getLast?.map (·.input)).getD b) x := by
  induction mid with
  | nil => intro b; simp [NoRearm]
  | cons y ys ih =>
    intro b
    simp only [List.cons_append, NoRearm, ih, and_assoc]
    cases ys <;> simp [List.getLast?_cons]

private theorem tp_started (h : List TimerIn) (hp : PresetOk h) (hn : NoRearm atOrigin false h) :
    ∃ s, runFB TP.call (zeroed .niche) h = .ok s ∧ s.start_time = some 0 ∧ s.input_edge.current_value = lastInput h := by
  revert hp hn
  refine snoc_induction ?_ ?_ h
  · intro _ _; exact ⟨_, rfl, rfl, rfl⟩
  · intro h x ih hp hn
    rw [noRearm_snoc] at hn
    obtain ⟨s, hs, g1, g2⟩ := ih (fun y hy => hp y (by simp [hy])) hn.1
    obtain ⟨s', e, q1, _, q3, _⟩ := tp_run s g1 (hp x (by simp))
    refine ⟨s', by rw [runFB_snoc_ok hs, e], (q3 ?_).1, by simp [q1, lastInput]⟩
    rw [g2]; exact hn.2

/-- **C100**, TP with the niche layout: the instance behaves as if a pulse had begun at the origin of the clock: Q is
TRUE while the clock is at most PT, a rising IN starts nothing, and only after a call that finds the pulse expired and
IN falling is it like a fresh one. -/
theorem C100_tp_partial (h : List TimerIn) (i : TimerIn) (hn : NoRearm atOrigin false h)
    (hp : PresetOk (h ++ [i])) (hc : ClockOk [i]) :
    (∃ s, runFB TP.call (zeroed .niche) (h ++ [i]) = .ok s ∧ (s.output = true ↔ (i.t2 : Int) ≤ i.pt) ∧
      (¬ Rearms atOrigin (lastInput h) i → s.elapsed_time = min i.pt i.t1)) ∧
    (Rearms atOrigin (lastInput h) i → ∀ next post,
      runFB TP.call (zeroed .niche) (h ++ i :: next :: post) = runFB TP.call TimerParams.default (next :: post)) := by
  obtain ⟨s, hs, g1, g2⟩ := tp_started h (fun y hy => hp y (by simp [hy])) hn
  obtain ⟨s', e, _, q2, q3, q4⟩ := tp_run s g1 (hp i (by simp))
  rw [g2] at q3 q4
  refine ⟨⟨s', by rw [runFB_snoc_ok hs, e], q2, fun h => ?_⟩, fun hr next post => ?_⟩
  · rw [(q3 h).2, wrap_i64_small (hc.2 i.t1 (by simp [readings]))]
  · rw [runFB_append, hs, Res.bind_ok, runFB_cons, e, Res.bind_ok, q4 hr, runFB_cons, runFB_cons]
    rfl

/-- IN rises at 7 (starting nothing), and falls at 9, when the imaginary pulse of length 5 is over: like fresh from there on. -/
example : NoRearm atOrigin false [⟨true, 5, 7, 7⟩] ∧ PresetOk [⟨true, 5, 7, 7⟩, ⟨false, 5, 9, 9⟩] ∧ ClockOk [⟨false, 5, 9, 9⟩] ∧
    Rearms atOrigin (lastInput [⟨true, 5, 7, 7⟩]) ⟨false, 5, 9, 9⟩ := by
  simp [NoRearm, Rearms, PresetOk, ClockOk, readings, lastInput, elapsed2, atOrigin]

end Verif
