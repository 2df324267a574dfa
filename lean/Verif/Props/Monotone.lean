import Verif.Props.Timers
import Verif.Model.Counters
/-
C180: timers and latches respond monotonically.
-/
namespace Verif
open TimerParams

namespace Spec
/-- Two calls at the same instants; IN is TRUE in the second if it is in the first. -/
structure InAtMost (x y : TimerIn) : Prop where
  input : x.input = true → y.input = true
  clock : x.t1 = y.t1 ∧ x.t2 = y.t2

/-- S is TRUE in the second call if it is in the first, R is TRUE in the first if it is in the second. -/
structure SetAtMost (x y : LatchIn) : Prop where
  set : x.set = true → y.set = true
  reset : y.reset = true → x.reset = true

/-- The two histories that a list of pairs of calls is made of. -/
abbrev firsts {I : Type} (ps : List (I × I)) : List I := ps.map Prod.fst
@[inherit_doc firsts] abbrev seconds {I : Type} (ps : List (I × I)) : List I := ps.map Prod.snd
end Spec
open Spec

/-- What is known of two TONs (`b` = the last reading of the clock). -/
private def TonInv (b : Nat) (s s' : TimerParams) : Prop :=
  (s.input_edge.current_value = s.start_time.isSome) ∧ (s'.input_edge.current_value = s'.start_time.isSome) ∧
  (∀ a, s.start_time = some a → ∃ c, s'.start_time = some c ∧ c ≤ a) ∧ (∀ c, s'.start_time = some c → c ≤ b)

private theorem ton_step {b : Nat} {s s' : TimerParams} {i i' : TimerIn} (hI : TonInv b s s') (h : InAtMost i i') (hb : b ≤ i.t1) (ht : i.t1 ≤ i.t2)
    (h63 : i.t1 < 2 ^ 63) (hp : 0 ≤ i.pt ∧ i.pt < 2 ^ 63) (hp' : 0 ≤ i'.pt ∧ i'.pt < 2 ^ 63) :
    ∃ r r', TON.call s i = .ok r ∧ TON.call s' i' = .ok r' ∧ TonInv i.t2 r r' ∧ (i'.pt ≤ i.pt → r.output = true → r'.output = true) ∧
      (i.pt ≤ i'.pt → r.elapsed_time ≤ r'.elapsed_time) := by
  obtain ⟨hin, h1, h2⟩ := h
  obtain ⟨inp, pt, t1, t2⟩ := i
  obtain ⟨inp', pt', t1', t2'⟩ := i'
  simp only at hin h1 h2 hb ht hp hp' h63
  subst h1 h2
  obtain ⟨_, _, _, _, ⟨e⟩, st⟩ := s
  obtain ⟨_, _, _, _, ⟨e'⟩, st'⟩ := s'
  obtain ⟨g1, g2, g3, g4⟩ := hI
  simp only at g1 g2 g3 g4
  have w' : ∀ x, IntTy.i64.wrap ((t1 - x : Nat) : Int) = (t1 - x : Nat) := fun x => wrap_i64_small (by omega)
  have w1 := wrap_pt hp
  have w2 := wrap_pt hp'
  cases st <;> cases st' <;> cases inp <;> cases inp' <;>
    simp_all [TON.call, TON, TonInv, is_running, finish, reset, start, update_elapsed_time, get_run_time, input_rising_edge,
        Signal.rising_edge, Signal.set, is_in_preset_range] <;> omega

private theorem clock_cons {x : TimerIn} {h : List TimerIn} (hc : ClockOk (x :: h)) :
    x.t1 ≤ x.t2 ∧ x.t1 < 2 ^ 63 ∧ (∀ r ∈ readings h, x.t2 ≤ r) ∧ ClockOk h := by
  obtain ⟨h1, h2⟩ := hc
  simp only [readings, List.flatMap_cons, List.cons_append, List.nil_append, List.pairwise_cons, List.mem_cons] at h1 h2
  exact ⟨h1.1 _ (.inl rfl), h2 _ (.inl rfl), h1.2.1, h1.2.2, fun r hr => h2 r (.inr (.inr hr))⟩

private theorem preset_cons {x : TimerIn} {h : List TimerIn} (hp : PresetOk (x :: h)) : (0 ≤ x.pt ∧ x.pt < 2 ^ 63) ∧ PresetOk h :=
  ⟨hp x (List.mem_cons_self ..), fun y hy => hp y (List.mem_cons_of_mem _ hy)⟩

/-- A pair of timers kept in step by an invariant, over a whole history. -/
private theorem pair_run {call : TimerParams → TimerIn → Res TimerParams} {Inv : Nat → TimerParams → TimerParams → Prop}
    {Good : TimerIn × TimerIn → TimerParams → TimerParams → Prop}
    (step : ∀ {b s s' i i'}, Inv b s s' → InAtMost i i' → b ≤ i.t1 → i.t1 ≤ i.t2 → i.t1 < 2 ^ 63 → (0 ≤ i.pt ∧ i.pt < 2 ^ 63) →
      (0 ≤ i'.pt ∧ i'.pt < 2 ^ 63) → ∃ r r', call s i = .ok r ∧ call s' i' = .ok r' ∧ Inv i.t2 r r' ∧ Good (i, i') r r')
    (ps : List (TimerIn × TimerIn)) (i i' : TimerIn) : ∀ (b : Nat) (s s' : TimerParams), Inv b s s' →
    (∀ q ∈ ps ++ [(i, i')], InAtMost q.1 q.2) → ClockOk (firsts (ps ++ [(i, i')])) → (∀ r ∈ readings (firsts (ps ++ [(i, i')])), b ≤ r) →
    PresetOk (firsts (ps ++ [(i, i')])) → PresetOk (seconds (ps ++ [(i, i')])) →
    ∃ r r', runFB call s (firsts (ps ++ [(i, i')])) = .ok r ∧ runFB call s' (seconds (ps ++ [(i, i')])) = .ok r' ∧ Good (i, i') r r' := by
  induction ps with
  | nil =>
    intro b s s' hI hin hc hb hp hp'
    simp only [List.nil_append, firsts, seconds, List.map_cons, List.map_nil] at hin hc hb hp hp' ⊢
    obtain ⟨c1, c2, _, _⟩ := clock_cons hc
    obtain ⟨r, r', e1, e2, _, g⟩ := step hI (hin _ (List.mem_cons_self ..)) (hb _ (by simp [readings])) c1 c2 (preset_cons hp).1 (preset_cons hp').1
    exact ⟨r, r', by simp [e1], by simp [e2], g⟩
  | cons q ps ih =>
    intro b s s' hI hin hc hb hp hp'
    simp only [List.cons_append, firsts, seconds, List.map_cons] at hin hc hb hp hp' ⊢
    obtain ⟨c1, c2, c3, c4⟩ := clock_cons hc
    obtain ⟨r, r', e1, e2, hI', _⟩ := step hI (hin _ (List.mem_cons_self ..)) (hb _ (by simp [readings])) c1 c2 (preset_cons hp).1 (preset_cons hp').1
    obtain ⟨u, u', f1, f2, g⟩ := ih q.1.t2 r r' hI' (fun x hx => hin x (List.mem_cons_of_mem _ hx)) c4 c3 (preset_cons hp).2 (preset_cons hp').2
    exact ⟨u, u', by rw [runFB_cons, e1]; exact f1, by rw [runFB_cons, e2]; exact f2, g⟩

/-- **C180**, TON. Two histories at the same instants, with IN TRUE in the second whenever it is in the first: then the second is on whenever the first is, if PT of
the last call is not longer; and its ET is at least that of the first, if PT of the last call is not shorter. -/
theorem C180_ton (ps : List (TimerIn × TimerIn)) (i i' : TimerIn) (hin : ∀ q ∈ ps ++ [(i, i')], InAtMost q.1 q.2)
    (hc : ClockOk (firsts (ps ++ [(i, i')]))) (hp : PresetOk (firsts (ps ++ [(i, i')]))) (hp' : PresetOk (seconds (ps ++ [(i, i')]))) :
    ∃ s s', tonAfter (firsts (ps ++ [(i, i')])) = .ok s ∧ tonAfter (seconds (ps ++ [(i, i')])) = .ok s' ∧
      (i'.pt ≤ i.pt → s.output = true → s'.output = true) ∧ (i.pt ≤ i'.pt → s.elapsed_time ≤ s'.elapsed_time) := by
  refine pair_run (Inv := TonInv)
    (Good := fun q r r' => (q.2.pt ≤ q.1.pt → r.output = true → r'.output = true) ∧ (q.1.pt ≤ q.2.pt → r.elapsed_time ≤ r'.elapsed_time))
    (fun hI h hb ht h63 hp hp' => ton_step hI h hb ht h63 hp hp') ps i i' 0 _ _ ?_ hin hc (fun _ _ => Nat.zero_le _) hp hp'
  exact ⟨rfl, rfl, fun _ h => (by cases h), fun _ h => (by cases h)⟩

/-- What is known of two TOFs (`b` = the last reading of the clock). -/
private def TofInv (b : Nat) (s s' : TimerParams) : Prop :=
  (s.input_edge.current_value = true → s'.input_edge.current_value = true) ∧ (s.input_edge.current_value = true → s.start_time = none) ∧
  (s'.input_edge.current_value = true → s'.start_time = none) ∧
  (∀ a, s.start_time = some a → a ≤ b ∧ (s'.input_edge.current_value = true ∨ ∃ c, s'.start_time = some c ∧ a ≤ c))

private theorem tof_step {b : Nat} {s s' : TimerParams} {i i' : TimerIn} (hI : TofInv b s s') (h : InAtMost i i') (hb : b ≤ i.t1) (ht : i.t1 ≤ i.t2)
    (_ : i.t1 < 2 ^ 63) (hp : 0 ≤ i.pt ∧ i.pt < 2 ^ 63) (hp' : 0 ≤ i'.pt ∧ i'.pt < 2 ^ 63) :
    ∃ r r', TOF.call s i = .ok r ∧ TOF.call s' i' = .ok r' ∧ TofInv i.t2 r r' ∧ (i.pt ≤ i'.pt → r.output = true → r'.output = true) := by
  obtain ⟨hin, h1, h2⟩ := h
  obtain ⟨inp, pt, t1, t2⟩ := i
  obtain ⟨inp', pt', t1', t2'⟩ := i'
  simp only at hin h1 h2 hb ht hp hp'
  subst h1 h2
  obtain ⟨_, _, _, _, ⟨e⟩, st⟩ := s
  obtain ⟨_, _, _, _, ⟨e'⟩, st'⟩ := s'
  obtain ⟨g1, g2, g3, g4⟩ := hI
  simp only at g1 g2 g3 g4
  have w1 := wrap_pt hp
  have w2 := wrap_pt hp'
  cases st <;> cases st' <;> cases inp <;> cases inp' <;> cases e <;> cases e' <;>
    simp_all [TOF.call, TOF, TofInv, is_running, finish, reset, start, update_elapsed_time, get_run_time, input_rising_edge, input_falling_edge,
        Signal.rising_edge, Signal.falling_edge, Signal.set, is_in_preset_range] <;> omega

/-- **C180**, TOF. Two histories at the same instants, with IN TRUE in the second whenever it is in the first: then the second is on whenever the first is, if PT of
the last call is not shorter. -/
theorem C180_tof (ps : List (TimerIn × TimerIn)) (i i' : TimerIn) (hin : ∀ q ∈ ps ++ [(i, i')], InAtMost q.1 q.2)
    (hc : ClockOk (firsts (ps ++ [(i, i')]))) (hp : PresetOk (firsts (ps ++ [(i, i')]))) (hp' : PresetOk (seconds (ps ++ [(i, i')]))) (hpt : i.pt ≤ i'.pt) :
    ∃ s s', tofAfter (firsts (ps ++ [(i, i')])) = .ok s ∧ tofAfter (seconds (ps ++ [(i, i')])) = .ok s' ∧ (s.output = true → s'.output = true) := by
  obtain ⟨s, s', h1, h2, h3⟩ := pair_run (Inv := TofInv) (Good := fun q r r' => q.1.pt ≤ q.2.pt → r.output = true → r'.output = true)
    (fun hI h hb ht h63 hp hp' => tof_step hI h hb ht h63 hp hp') ps i i' 0 TimerParams.default TimerParams.default
    ⟨id, fun h => (by cases h), fun h => (by cases h), fun _ h => (by cases h)⟩ hin hc (fun _ _ => Nat.zero_le _) hp hp'
  exact ⟨s, s', h1, h2, h3 hpt⟩

private theorem latch_run {call : SetResetParams → LatchIn → Res SetResetParams}
    (step : ∀ {s s' i i'}, SetAtMost i i' → (s.output = true → s'.output = true) →
      ∃ r r', call s i = .ok r ∧ call s' i' = .ok r' ∧ (r.output = true → r'.output = true))
    (ps : List (LatchIn × LatchIn)) (h : ∀ q ∈ ps, SetAtMost q.1 q.2) : ∀ (s s' : SetResetParams), (s.output = true → s'.output = true) →
    ∃ r r', runFB call s (firsts ps) = .ok r ∧ runFB call s' (seconds ps) = .ok r' ∧ (r.output = true → r'.output = true) := by
  induction ps with
  | nil => exact fun s s' hs => ⟨s, s', rfl, rfl, hs⟩
  | cons q ps ih =>
    intro s s' hs
    obtain ⟨r, r', e1, e2, h'⟩ := step (h q (List.mem_cons_self ..)) hs
    obtain ⟨u, u', f1, f2, g⟩ := ih (fun x hx => h x (List.mem_cons_of_mem _ hx)) r r' h'
    exact ⟨u, u', by rw [firsts, List.map_cons, runFB_cons, e1]; exact f1, by rw [seconds, List.map_cons, runFB_cons, e2]; exact f2, g⟩

/-- **C180**, SR: the output is on whenever that of an instance is that is set less often and reset more often. -/
theorem C180_sr (ps : List (LatchIn × LatchIn)) (h : ∀ q ∈ ps, SetAtMost q.1 q.2) :
    ∃ s s', runFB SR.call SetResetParams.default (firsts ps) = .ok s ∧ runFB SR.call SetResetParams.default (seconds ps) = .ok s' ∧
      (s.output = true → s'.output = true) := by
  refine latch_run ?_ ps h _ _ id
  rintro s s' i i' ⟨h1, h2⟩ hs
  refine ⟨_, _, rfl, rfl, ?_⟩
  simp only [SR]
  revert h1 h2 hs
  cases i.set <;> cases i'.set <;> cases i.reset <;> cases i'.reset <;> simp

/-- **C180**, RS: likewise. -/
theorem C180_rs (ps : List (LatchIn × LatchIn)) (h : ∀ q ∈ ps, SetAtMost q.1 q.2) :
    ∃ s s', runFB RS.call SetResetParams.default (firsts ps) = .ok s ∧ runFB RS.call SetResetParams.default (seconds ps) = .ok s' ∧
      (s.output = true → s'.output = true) := by
  refine latch_run ?_ ps h _ _ id
  rintro s s' i i' ⟨h1, h2⟩ hs
  refine ⟨_, _, rfl, rfl, ?_⟩
  simp only [RS]
  revert h1 h2 hs
  cases i.set <;> cases i'.set <;> cases i.reset <;> cases i'.reset <;> simp

/-- Counters do not respond to R in this way: after these calls with CU TRUE, the counter that has been reset in the first call as well stands at 1, the one that
has not stands at 0 (the edge that came with R TRUE is counted after it, see C10). -/
theorem C180_ctu_extra_reset (t : IntTy) (p : Profile) (ht : t = .i16 ∨ t = .i32 ∨ t = .u32 ∨ t = .i64 ∨ t = .u64) :
    ∃ s s', runFB (ctuCall t p) CTUParams.default [⟨true, false, 1⟩, ⟨true, true, 1⟩, ⟨true, false, 1⟩] = .ok s ∧
      runFB (ctuCall t p) CTUParams.default [⟨true, true, 1⟩, ⟨true, true, 1⟩, ⟨true, false, 1⟩] = .ok s' ∧
      s.cv = 0 ∧ s.q = false ∧ s'.cv = 1 ∧ s'.q = true := by
  rcases ht with rfl | rfl | rfl | rfl | rfl <;> cases p <;> exact ⟨_, _, rfl, rfl, rfl, rfl, rfl, rfl⟩

/-- The hypotheses are met by an input that is interrupted in the one history only: TON is on at the end of the other. -/
example : (∀ q ∈ [((⟨true, 10, 0, 1⟩, ⟨true, 10, 0, 1⟩) : TimerIn × TimerIn), (⟨false, 10, 2, 3⟩, ⟨true, 10, 2, 3⟩)] ++
      [(⟨true, 10, 20, 21⟩, ⟨true, 9, 20, 21⟩)], InAtMost q.1 q.2) ∧
    ClockOk (firsts ([((⟨true, 10, 0, 1⟩, ⟨true, 10, 0, 1⟩) : TimerIn × TimerIn), (⟨false, 10, 2, 3⟩, ⟨true, 10, 2, 3⟩)] ++
      [(⟨true, 10, 20, 21⟩, ⟨true, 9, 20, 21⟩)])) ∧
    (∃ s, tonAfter [⟨true, 10, 0, 1⟩, ⟨false, 10, 2, 3⟩, ⟨true, 10, 20, 21⟩] = .ok s ∧ s.output = false) ∧
    (∃ s, tonAfter [⟨true, 10, 0, 1⟩, ⟨true, 10, 2, 3⟩, ⟨true, 9, 20, 21⟩] = .ok s ∧ s.output = true) := by
  refine ⟨?_, ⟨by decide, by decide⟩, ⟨_, rfl, rfl⟩, ⟨_, rfl, rfl⟩⟩
  intro q hq
  simp at hq
  rcases hq with rfl | rfl | rfl <;> exact ⟨by simp, rfl, rfl⟩

/-- A latch that is set later and reset earlier. -/
example : (∀ q ∈ [((⟨false, false⟩, ⟨true, false⟩) : LatchIn × LatchIn), (⟨true, false⟩, ⟨true, false⟩), (⟨false, true⟩, ⟨false, false⟩)],
      SetAtMost q.1 q.2) ∧
    (∃ s, runFB RS.call SetResetParams.default [⟨false, false⟩, ⟨true, false⟩, ⟨false, true⟩] = .ok s ∧ s.output = false) ∧
    (∃ s, runFB RS.call SetResetParams.default [⟨true, false⟩, ⟨true, false⟩, ⟨false, false⟩] = .ok s ∧ s.output = true) := by
  refine ⟨?_, ⟨_, rfl, rfl⟩, ⟨_, rfl, rfl⟩⟩
  intro q hq
  simp at hq
  rcases hq with rfl | rfl | rfl <;> exact ⟨by simp, by simp⟩

end Verif
