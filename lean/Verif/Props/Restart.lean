import Verif.Props.Timers
/-
C144: timers whose memory is kept while the device is off. The clock of the device starts again at a reading that has
nothing to do with the readings before, so the start time kept in the instance belongs to another clock.
-/
namespace Verif
open Spec TimerParams

namespace Spec

/-- `before` are the calls up to the failure, `after` those since the device runs again. Each part has a clock that never
goes backwards; nothing relates the one clock to the other. -/
def Restarted (before after : List TimerIn) : Prop := ClockOk before ∧ ClockOk after

/-- Time since the device runs again: from the first clock reading of the first call `x` of `after` to the second reading of
`i`. -/
def sinceRestart (x i : TimerIn) : Int := (i.t2 : Int) - x.t1

end Spec

/-! ### TON -/

/-- What is expected of a TON: if IN has been TRUE in every call since the restart, and that for more than PT, Q is TRUE. -/
def TonExpected : Prop := ∀ (before after : List TimerIn) (x i : TimerIn), Restarted before (x :: after ++ [i]) →
  PresetOk (before ++ (x :: after ++ [i])) → (∀ y ∈ x :: after ++ [i], y.input = true) → sinceRestart x i > i.pt →
  ∃ s, tonAfter (before ++ (x :: after ++ [i])) = .ok s ∧ s.output = true

/-- **C144 is false of TON**: PT is 5 ns, IN has been TRUE since 100 on the old clock; 50 ns after the restart Q is FALSE. -/
theorem C144_ton_refuted : ¬ TonExpected := by
  intro H
  obtain ⟨s, hs, hq⟩ := H [⟨true, 5, 100, 100⟩] [] ⟨true, 5, 0, 0⟩ ⟨true, 5, 50, 50⟩
    ⟨⟨by decide, by decide⟩, by decide, by decide⟩ (by simp [PresetOk]) (by simp) (by decide)
  have : tonAfter ([⟨true, 5, 100, 100⟩] ++ (⟨true, 5, 0, 0⟩ :: [] ++ [⟨true, 5, 50, 50⟩])) = .ok s := hs
  obtain ⟨s', hs', h'⟩ : ∃ s', tonAfter ([⟨true, 5, 100, 100⟩] ++ (⟨true, 5, 0, 0⟩ :: [] ++ [⟨true, 5, 50, 50⟩])) = .ok s' ∧
    s'.output = false := ⟨_, rfl, by decide⟩
  rw [this] at hs'
  cases hs'
  rw [hq] at h'; cases h'

private theorem trueRun_append {h pre run l : List TimerIn} {first : TimerIn} (H : TrueRun h pre first run)
    (hl : ∀ y ∈ l, y.input = true) : TrueRun (h ++ l) pre first (run ++ l) := by
  obtain ⟨rfl, a, b, c⟩ := H
  refine ⟨by simp, a, b, ?_⟩
  intro y hy
  rcases List.mem_append.1 hy with hy | hy
  · exact c y hy
  · exact hl y hy

private theorem falseRun_append {h pre run l : List TimerIn} {first : TimerIn} (H : FalseRun h pre first run)
    (hl : ∀ y ∈ l, y.input = false) : FalseRun (h ++ l) pre first (run ++ l) := by
  obtain ⟨rfl, a, b, c⟩ := H
  refine ⟨by simp, a, b, ?_⟩
  intro y hy
  rcases List.mem_append.1 hy with hy | hy
  · exact c y hy
  · exact hl y hy

/-- **C144, what a TON does.** IN was TRUE when the device went off, since a call that read `first.t1` on the old clock, and
is TRUE in every call since. Q becomes TRUE when the new clock has passed that old reading by more than PT — however long the
device has been on by then — and up to that old reading ET stays 0. -/
theorem C144_ton_exact (before pre run after : List TimerIn) (first i : TimerIn) (hr : TrueRun before pre first run)
    (hin : ∀ y ∈ after ++ [i], y.input = true) (hp : PresetOk [i]) (hc : ClockOk [i]) :
    ∃ s, tonAfter (before ++ (after ++ [i])) = .ok s ∧
      (s.output = true ↔ (first.t1 : Int) + i.pt < i.t2) ∧
      (i.t1 ≤ first.t1 → s.elapsed_time = 0) ∧
      (first.t1 < i.t1 → s.elapsed_time = min i.pt (i.t1 - first.t1)) := by
  obtain ⟨s, hs, -, -, h3⟩ := ton_last (before ++ after) i
  have hrun := trueRun_append hr (l := after) (fun y hy => hin y (by simp [hy]))
  obtain ⟨q1, q2⟩ := h3 (hin i (by simp)) _ _ _ hrun
  have hpt := hp i (by simp)
  have h1 : i.t1 < 2 ^ 63 := hc.2 _ (by simp [readings])
  rw [wrap_pt hpt] at q1
  rw [wrap_i64_small (by omega)] at q2
  refine ⟨s, by rw [← List.append_assoc]; exact hs, ?_, ?_, ?_⟩
  · rw [q1]; simp only [decide_eq_true_eq]; omega
  · intro h; rw [q2]; omega
  · intro h; rw [q2]; omega

/-- IN TRUE since 100 on the old clock, PT 5, one call after the restart before the last one. -/
example : TrueRun [⟨false, 5, 90, 90⟩, ⟨true, 5, 100, 100⟩] [⟨false, 5, 90, 90⟩] ⟨true, 5, 100, 100⟩ [] ∧
    (∀ y ∈ [(⟨true, 5, 0, 0⟩ : TimerIn)] ++ [⟨true, 5, 50, 50⟩], y.input = true) ∧ PresetOk [(⟨true, 5, 50, 50⟩ : TimerIn)] ∧
    ClockOk [(⟨true, 5, 50, 50⟩ : TimerIn)] :=
  ⟨⟨rfl, .inr ⟨[], _, rfl, rfl⟩, rfl, by simp⟩, by decide, by simp [PresetOk], by decide, by decide⟩

/-- **C144 for a TON, the cases in which it holds**: IN was FALSE when the device went off, or the old reading at which IN
became TRUE is not above the first reading after the restart. -/
theorem C144_ton_partial (before after : List TimerIn) (x i : TimerIn)
    (hp : PresetOk (before ++ (x :: after ++ [i]))) (hin : ∀ y ∈ x :: after ++ [i], y.input = true)
    (ht : sinceRestart x i > i.pt)
    (hcase : before = [] ∨ EndsWith false before ∨ ∃ pre first run, TrueRun before pre first run ∧ first.t1 ≤ x.t1) :
    ∃ s, tonAfter (before ++ (x :: after ++ [i])) = .ok s ∧ s.output = true := by
  have hpi : PresetOk [i] := fun y hy => hp y (by simp at hy; simp [hy])
  have key : ∀ pre first run, TrueRun (before ++ x :: after) pre first run → first.t1 ≤ x.t1 →
      ∃ s, tonAfter (before ++ (x :: after ++ [i])) = .ok s ∧ s.output = true := by
    intro pre first run H hle
    obtain ⟨s, hs, hq⟩ := C11_ton_output (before ++ x :: after) i hpi
    refine ⟨s, by rw [← List.append_assoc]; exact hs, hq.2 ⟨hin i (by simp), pre, first, run, H, ?_⟩⟩
    simp only [sinceRestart, elapsed2] at *; omega
  have hx : ∀ y ∈ x :: after, y.input = true := fun y hy => hin y (List.mem_append_left _ hy)
  rcases hcase with h | h | ⟨pre, first, run, H, hle⟩
  · exact key before x after ⟨rfl, .inl h, hx x (by simp), fun y hy => hx y (by simp [hy])⟩ (Nat.le_refl _)
  · exact key before x after ⟨rfl, .inr h, hx x (by simp), fun y hy => hx y (by simp [hy])⟩ (Nat.le_refl _)
  · exact key _ _ _ (trueRun_append H hx) hle

example : Restarted [(⟨false, 5, 90, 90⟩ : TimerIn)] [⟨true, 5, 0, 0⟩, ⟨true, 5, 50, 50⟩] ∧
    sinceRestart ⟨true, 5, 0, 0⟩ ⟨true, 5, 50, 50⟩ > 5 ∧ EndsWith false [(⟨false, 5, 90, 90⟩ : TimerIn)] :=
  ⟨⟨⟨by decide, by decide⟩, by decide, by decide⟩, by decide, ⟨[], _, rfl, rfl⟩⟩

/-- **C144, a TON forgets**: after a call with IN = FALSE since the restart, Q and ET in the next call `i` are those of a TON
whose memory was cleared at the restart. -/
theorem C144_ton_forgets (before a b : List TimerIn) (x i : TimerIn) (hx : x.input = false) :
    ∃ s s', tonAfter (before ++ (a ++ x :: b ++ [i])) = .ok s ∧ tonAfter (a ++ x :: b ++ [i]) = .ok s' ∧
      s.output = s'.output ∧ s.elapsed_time = s'.elapsed_time := by
  have hends : ∀ c : List TimerIn, EndsWith false (c ++ [x]) := fun c => ⟨c, x, rfl, hx⟩
  -- the run of TRUE calls at the end, if any, begins behind `x`
  have hsplit : ∀ b : List TimerIn, (∀ c, EndsWith false (c ++ x :: b)) ∨
      ∃ p first run, ∀ c, TrueRun (c ++ x :: b) (c ++ p) first run := by
    intro b
    refine snoc_induction ?_ ?_ b
    · exact .inl fun c => hends c
    · intro b y ih
      cases hy : y.input
      · exact .inl fun c => ⟨c ++ x :: b, y, by simp, hy⟩
      · right
        rcases ih with ih | ⟨p, first, run, ih⟩
        · exact ⟨x :: b, y, [], fun c => ⟨by simp, .inr (ih c), hy, by simp⟩⟩
        · refine ⟨p, first, run ++ [y], fun c => ?_⟩
          have := trueRun_append (ih c) (l := [y]) (by simpa using hy)
          simpa using this
  obtain ⟨s, hs, f1, f2, f3⟩ := ton_last (before ++ a ++ x :: b) i
  obtain ⟨s', hs', g1, g2, g3⟩ := ton_last (a ++ x :: b) i
  refine ⟨s, s', by simpa using hs, hs', ?_⟩
  cases hi : i.input
  · rw [(f1 hi).1, (f1 hi).2, (g1 hi).1, (g1 hi).2]; exact ⟨rfl, rfl⟩
  · rcases hsplit b with h | ⟨p, first, run, h⟩
    · rw [(f2 hi (.inr (h _))).1, (f2 hi (.inr (h _))).2, (g2 hi (.inr (h _))).1, (g2 hi (.inr (h _))).2]
      exact ⟨rfl, rfl⟩
    · rw [(f3 hi _ _ _ (h _)).1, (f3 hi _ _ _ (h _)).2, (g3 hi _ _ _ (h _)).1, (g3 hi _ _ _ (h _)).2]
      exact ⟨rfl, rfl⟩

/-! ### TOF -/

/-- What is expected of a TOF: if IN has been FALSE in every call since the restart, and that for more than PT, Q is
FALSE. -/
def TofExpected : Prop := ∀ (before after : List TimerIn) (x i : TimerIn), Restarted before (x :: after ++ [i]) →
  PresetOk (before ++ (x :: after ++ [i])) → (∀ y ∈ x :: after ++ [i], y.input = false) → sinceRestart x i > i.pt →
  ∃ s, tofAfter (before ++ (x :: after ++ [i])) = .ok s ∧ s.output = false

/-- **C144 is false of TOF**: PT is 5 ns, IN fell at 100 on the old clock; 50 ns after the restart Q is still TRUE. -/
theorem C144_tof_refuted : ¬ TofExpected := by
  intro H
  obtain ⟨s, hs, hq⟩ := H [⟨true, 5, 90, 90⟩, ⟨false, 5, 100, 100⟩] [] ⟨false, 5, 0, 0⟩ ⟨false, 5, 50, 50⟩
    ⟨⟨by decide, by decide⟩, by decide, by decide⟩ (by simp [PresetOk]) (by simp) (by decide)
  have : tofAfter ([⟨true, 5, 90, 90⟩, ⟨false, 5, 100, 100⟩] ++ (⟨false, 5, 0, 0⟩ :: [] ++ [⟨false, 5, 50, 50⟩])) = .ok s := hs
  obtain ⟨s', hs', h'⟩ : ∃ s', tofAfter ([⟨true, 5, 90, 90⟩, ⟨false, 5, 100, 100⟩] ++
    (⟨false, 5, 0, 0⟩ :: [] ++ [⟨false, 5, 50, 50⟩])) = .ok s' ∧ s'.output = true := ⟨_, rfl, by decide⟩
  rw [this] at hs'
  cases hs'
  rw [hq] at h'; cases h'

/-- **C144, what a TOF does.** IN had fallen when the device went off, in a call that read `first.t1` on the old clock, and
is FALSE in every call since. Q stays TRUE until the new clock has passed that old reading by more than PT. -/
theorem C144_tof_exact (before pre run after : List TimerIn) (first i : TimerIn) (hr : FalseRun before pre first run)
    (hin : ∀ y ∈ after ++ [i], y.input = false) (hp : PresetOk [i]) (hc : ClockOk [i]) :
    ∃ s, tofAfter (before ++ (after ++ [i])) = .ok s ∧
      (s.output = true ↔ (i.t2 : Int) ≤ first.t1 + i.pt) ∧
      (i.t1 ≤ first.t1 → s.elapsed_time = 0) ∧
      (first.t1 < i.t1 → s.elapsed_time = min i.pt (i.t1 - first.t1)) := by
  obtain ⟨s, hs, -, -, -, h3⟩ := tof_last (before ++ after) i
  have hrun := falseRun_append hr (l := after) (fun y hy => hin y (by simp [hy]))
  obtain ⟨q1, q2⟩ := h3 (hin i (by simp)) _ _ _ hrun
  have hpt := hp i (by simp)
  have h1 : i.t1 < 2 ^ 63 := hc.2 _ (by simp [readings])
  rw [wrap_pt hpt] at q1
  rw [wrap_i64_small (by omega)] at q2
  refine ⟨s, by rw [← List.append_assoc]; exact hs, ?_, ?_, ?_⟩
  · rw [q1]; simp only [decide_eq_true_eq]; omega
  · intro h; rw [q2]; omega
  · intro h; rw [q2]; omega

example : FalseRun [⟨true, 5, 90, 90⟩, ⟨false, 5, 100, 100⟩] [⟨true, 5, 90, 90⟩] ⟨false, 5, 100, 100⟩ [] ∧
    (∀ y ∈ [(⟨false, 5, 0, 0⟩ : TimerIn)] ++ [⟨false, 5, 50, 50⟩], y.input = false) :=
  ⟨⟨rfl, ⟨[], _, rfl, rfl⟩, rfl, by simp⟩, by decide⟩

/-- **C144 for a TOF, the cases in which it holds**: IN was TRUE when the device went off, or had never been TRUE, or the old
reading at which IN fell is not above the first reading after the restart. -/
theorem C144_tof_partial (before after : List TimerIn) (x i : TimerIn)
    (hp : PresetOk (before ++ (x :: after ++ [i]))) (hin : ∀ y ∈ x :: after ++ [i], y.input = false)
    (ht : sinceRestart x i > i.pt)
    (hcase : EndsWith true before ∨ (∀ y ∈ before, y.input = false) ∨
      ∃ pre first run, FalseRun before pre first run ∧ first.t1 ≤ x.t1) :
    ∃ s, tofAfter (before ++ (x :: after ++ [i])) = .ok s ∧ s.output = false := by
  have hpt := hp i (by simp)
  have hi : i.input = false := hin i (by simp)
  have hx : ∀ y ∈ x :: after, y.input = false := fun y hy => hin y (List.mem_append_left _ hy)
  obtain ⟨s, hs, -, -, h2, h3⟩ := tof_last (before ++ x :: after) i
  refine ⟨s, by rw [← List.append_assoc]; exact hs, ?_⟩
  have key : ∀ pre first run, FalseRun (before ++ x :: after) pre first run → first.t1 ≤ x.t1 → s.output = false := by
    intro pre first run H hle
    rw [(h3 hi _ _ _ H).1, wrap_pt hpt]
    simp only [sinceRestart] at ht
    simp only [decide_eq_false_iff_not]; omega
  rcases hcase with h | h | ⟨pre, first, run, H, hle⟩
  · exact key before x after ⟨rfl, h, hx x (by simp), fun y hy => hx y (by simp [hy])⟩ (Nat.le_refl _)
  · refine (h2 hi ?_).1
    intro y hy
    rcases List.mem_append.1 hy with hy | hy
    · exact h y hy
    · exact hx y hy
  · exact key _ _ _ (falseRun_append H hx) hle

example : Restarted [(⟨true, 5, 90, 90⟩ : TimerIn)] [⟨false, 5, 0, 0⟩, ⟨false, 5, 50, 50⟩] ∧
    sinceRestart ⟨false, 5, 0, 0⟩ ⟨false, 5, 50, 50⟩ > 5 ∧ EndsWith true [(⟨true, 5, 90, 90⟩ : TimerIn)] :=
  ⟨⟨⟨by decide, by decide⟩, by decide, by decide⟩, by decide, ⟨[], _, rfl, rfl⟩⟩

/-- **C144, a TOF forgets**: after a call with IN = TRUE since the restart, Q and ET in the next call `i` are those of a TOF
whose memory was cleared at the restart. -/
theorem C144_tof_forgets (before a b : List TimerIn) (x i : TimerIn) (hx : x.input = true) :
    ∃ s s', tofAfter (before ++ (a ++ x :: b ++ [i])) = .ok s ∧ tofAfter (a ++ x :: b ++ [i]) = .ok s' ∧
      s.output = s'.output ∧ s.elapsed_time = s'.elapsed_time := by
  have hends : ∀ c : List TimerIn, EndsWith true (c ++ [x]) := fun c => ⟨c, x, rfl, hx⟩
  have hsplit : ∀ b : List TimerIn, (∀ c, EndsWith true (c ++ x :: b)) ∨
      ∃ p first run, ∀ c, FalseRun (c ++ x :: b) (c ++ p) first run := by
    intro b
    refine snoc_induction ?_ ?_ b
    · exact .inl fun c => hends c
    · intro b y ih
      cases hy : y.input
      · right
        rcases ih with ih | ⟨p, first, run, ih⟩
        · exact ⟨x :: b, y, [], fun c => ⟨by simp, ih c, hy, by simp⟩⟩
        · refine ⟨p, first, run ++ [y], fun c => ?_⟩
          have := falseRun_append (ih c) (l := [y]) (by simpa using hy)
          simpa using this
      · exact .inl fun c => ⟨c ++ x :: b, y, by simp, hy⟩
  obtain ⟨s, hs, f1, f2, _, f3⟩ := tof_last (before ++ a ++ x :: b) i
  obtain ⟨s', hs', g1, g2, _, g3⟩ := tof_last (a ++ x :: b) i
  refine ⟨s, s', by simpa using hs, hs', ?_⟩
  cases hi : i.input
  · rcases hsplit b with h | ⟨p, first, run, h⟩
    · rw [(f2 hi (h _)).1, (f2 hi (h _)).2, (g2 hi (h _)).1, (g2 hi (h _)).2]
      exact ⟨rfl, rfl⟩
    · rw [(f3 hi _ _ _ (h _)).1, (f3 hi _ _ _ (h _)).2, (g3 hi _ _ _ (h _)).1, (g3 hi _ _ _ (h _)).2]
      exact ⟨rfl, rfl⟩
  · rw [(f1 hi).1, (f1 hi).2, (g1 hi).1, (g1 hi).2]; exact ⟨rfl, rfl⟩

/-! ### TP -/

/-- What is expected of a TP: a pulse that was on when the device went off is over when the device has been on for more than
PT. -/
def TpExpected : Prop := ∀ (pre mid after : List TimerIn) (start x i : TimerIn), TPIdle pre → start.input = true →
  NoRearm start true (mid ++ x :: after) → Restarted (pre ++ start :: mid) (x :: after ++ [i]) →
  PresetOk (pre ++ start :: mid ++ (x :: after ++ [i])) → sinceRestart x i > i.pt →
  ∃ s, tpAfter (pre ++ start :: mid ++ (x :: after ++ [i])) = .ok s ∧ s.output = false

/-- **C144 is false of TP**: a pulse of 5 ns that began at 100 on the old clock is still on 50 ns after the restart. -/
theorem C144_tp_refuted : ¬ TpExpected := by
  intro H
  obtain ⟨s, hs, hq⟩ := H [] [] [] ⟨true, 5, 100, 100⟩ ⟨true, 5, 0, 0⟩ ⟨true, 5, 50, 50⟩ .fresh rfl
    ⟨by rintro ⟨_, h, _⟩; simp at h, trivial⟩ ⟨⟨by decide, by decide⟩, by decide, by decide⟩ (by simp [PresetOk]) (by decide)
  have : tpAfter ([⟨true, 5, 100, 100⟩, ⟨true, 5, 0, 0⟩, ⟨true, 5, 50, 50⟩]) = .ok s := hs
  obtain ⟨s', hs', h'⟩ : ∃ s', tpAfter ([⟨true, 5, 100, 100⟩, ⟨true, 5, 0, 0⟩, ⟨true, 5, 50, 50⟩]) = .ok s' ∧
    s'.output = true := ⟨_, rfl, by decide⟩
  rw [this] at hs'
  cases hs'
  rw [hq] at h'; cases h'

/-- **C144, what a TP does.** A pulse began before the failure, in a call that read `start.t1` on the old clock, and no call
`mid` (before or after the restart) has re-armed the timer. Q is TRUE until the new clock has passed that old reading by more
than PT, whatever IN does. -/
theorem C144_tp_exact (pre mid : List TimerIn) (start i : TimerIn) (hidle : TPIdle pre) (hst : start.input = true)
    (hn : NoRearm start true mid) (hp : PresetOk (pre ++ start :: mid ++ [i])) :
    ∃ s, tpAfter (pre ++ start :: mid ++ [i]) = .ok s ∧ (s.output = true ↔ (i.t2 : Int) ≤ start.t1 + i.pt) := by
  obtain ⟨s, hs, hq⟩ := tp_pulse_output pre mid start i hidle hst hn hp
  refine ⟨s, hs, hq.trans ?_⟩
  simp only [elapsed2]; omega

example : TPIdle [] ∧ NoRearm ⟨true, 5, 100, 100⟩ true [⟨false, 5, 0, 0⟩, ⟨true, 5, 20, 20⟩] :=
  ⟨.fresh, ⟨by rintro ⟨_, _, h⟩; exact absurd h (by decide), by rintro ⟨_, h, _⟩; exact absurd h (by decide), trivial⟩⟩

/-- **C144 for a TP, the case in which it holds**: the old reading at which the pulse began is not above the first reading
after the restart. -/
theorem C144_tp_partial (pre mid after : List TimerIn) (start x i : TimerIn) (hidle : TPIdle pre) (hst : start.input = true)
    (hn : NoRearm start true (mid ++ x :: after)) (hp : PresetOk (pre ++ start :: mid ++ (x :: after ++ [i])))
    (ht : sinceRestart x i > i.pt) (hle : start.t1 ≤ x.t1) :
    ∃ s, tpAfter (pre ++ start :: mid ++ (x :: after ++ [i])) = .ok s ∧ s.output = false := by
  have e : pre ++ start :: mid ++ (x :: after ++ [i]) = pre ++ start :: (mid ++ x :: after) ++ [i] := by simp
  rw [e] at hp ⊢
  obtain ⟨s, hs, hq⟩ := C144_tp_exact pre (mid ++ x :: after) start i hidle hst hn hp
  refine ⟨s, hs, ?_⟩
  cases ho : s.output
  · rfl
  · have := hq.1 ho
    simp only [sinceRestart] at ht; omega

end Verif
