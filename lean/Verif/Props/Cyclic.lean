import Verif.Props.Timers
import Verif.Props.Scan
/-
C106: how late a timer reacts when it is called cyclically.  C11, C13 and C15 say what a timer shows in a call; a user of a PLC needs
to know when the output changes if the block is called at least once in every `D` nanoseconds.
-/
namespace Verif
open Spec

namespace Spec

/-- The calls follow each other within `D`: from the first clock reading of a call to the end of the next call it takes at most `D`. -/
def ScansWithin (D : Nat) (h : List TimerIn) : Prop := ∀ a x y b, h = a ++ x :: y :: b → y.t2 ≤ x.t1 + D

/-- `PT` is a valid, non-negative TIME and it is the preset in every call. -/
def ConstantPreset (PT : Int) (h : List TimerIn) : Prop := (0 ≤ PT ∧ PT < 2 ^ 63) ∧ ∀ x ∈ h, x.pt = PT

end Spec

/-- The first call after more than `PT`, and how late it is. -/
private theorem first_late {D : Nat} {PT : Int} {first : TimerIn} (_ : 0 ≤ PT) : ∀ (run done : List TimerIn) (prev : TimerIn),
    ((prev.t1 : Int) - first.t1 ≤ PT) → ScansWithin D (prev :: run) → (∀ y ∈ run, y.t1 ≤ y.t2) →
    (∃ y ∈ run, elapsed2 first y > PT) → (∀ y ∈ done, elapsed2 first y ≤ PT) →
    ∃ a x b, done ++ run = a ++ x :: b ∧ (∀ y ∈ a, elapsed2 first y ≤ PT) ∧ PT < elapsed2 first x ∧
      elapsed2 first x ≤ PT + D := by
  intro run
  induction run with
  | nil => intro _ _ _ _ _ h; obtain ⟨y, hy, _⟩ := h; simp at hy
  | cons y run ih =>
    intro done prev hprev hs hc hex hdone
    have h1 := hs [] prev y run rfl
    by_cases hy : elapsed2 first y > PT
    · exact ⟨done, y, run, rfl, hdone, hy, by simp only [elapsed2] at hy ⊢; omega⟩
    · have h2 := hc y (by simp)
      obtain ⟨a, x, b, e, r⟩ := ih (done ++ [y]) y (by simp only [elapsed2] at hy; omega)
        (fun a x z b e => hs (prev :: a) x z b (by simp [e])) (fun z hz => hc z (by simp [hz]))
        (by
          obtain ⟨z, hz, h⟩ := hex
          rcases List.mem_cons.1 hz with rfl | hz
          · exact absurd h hy
          · exact ⟨z, hz, h⟩)
        (by
          intro z hz
          rcases List.mem_append.1 hz with hz | hz
          · exact hdone z hz
          · simp only [List.mem_singleton] at hz; subst hz; omega)
      exact ⟨a, x, b, by rw [← e]; simp, r⟩

private theorem clock_call {h : List TimerIn} (hc : ClockOk h) : ∀ y ∈ h, y.t1 ≤ y.t2 := by
  intro y hy
  obtain ⟨a, b, rfl⟩ := List.append_of_mem hy
  have := hc.1
  simp only [readings, List.flatMap_append, List.flatMap_cons, List.pairwise_append, List.pairwise_cons, List.mem_append,
    List.mem_cons] at this
  exact this.2.1.1.1 _ (.inl rfl)

private theorem clock_order {a : List TimerIn} {x : TimerIn} {b : List TimerIn} (hc : ClockOk (a ++ x :: b)) :
    ∀ y ∈ b, x.t2 ≤ y.t2 := by
  intro y hy
  obtain ⟨c, d, rfl⟩ := List.append_of_mem hy
  have := hc.1
  simp only [readings, List.flatMap_append, List.flatMap_cons, List.pairwise_append, List.pairwise_cons, List.mem_append,
    List.mem_cons] at this
  exact this.2.1.2.2 _ (.inr (.inl rfl)) _ (.inr (.inl (.inr (.inl rfl))))

private theorem out_of {call : TimerParams → TimerIn → Res TimerParams} {h : List TimerIn} {s : TimerParams} {b : Bool}
    (e : runFB call TimerParams.default h = .ok s) (hb : s.output = b) :
    outputs call TimerParams.default (·.output) h = .ok b := by simp [outputs, e, hb]

/-- From what is known about every single call of the run to the call in which the output changes. -/
private theorem reaction {call : TimerParams → TimerIn → Res TimerParams} {before after : Bool} {D : Nat} {PT : Int}
    {pre run : List TimerIn} {first : TimerIn}
    (h0 : outputs call TimerParams.default (·.output) (pre ++ [first]) = .ok before)
    (hnext : ∀ q y, q ++ [y] <+: run → outputs call TimerParams.default (·.output) (pre ++ first :: q ++ [y]) =
      .ok (if elapsed2 first y > PT then after else before))
    (hPT : 0 ≤ PT) (hc : ClockOk (first :: run)) (hD : ScansWithin D (first :: run)) (hlong : ∃ y ∈ run, elapsed2 first y > PT) :
    ∃ a x b, run = a ++ x :: b ∧
      (∀ q, q <+: a → outputs call TimerParams.default (·.output) (pre ++ first :: q) = .ok before) ∧
      (∀ q, q <+: b → outputs call TimerParams.default (·.output) (pre ++ first :: a ++ x :: q) = .ok after) ∧
      PT < elapsed2 first x ∧ elapsed2 first x ≤ PT + D := by
  obtain ⟨a, x, b, e, ha, h1, h2⟩ := first_late hPT run [] first (by simpa using hPT) hD
    (fun y hy => clock_call hc y (by simp [hy])) hlong (by simp)
  simp only [List.nil_append] at e
  subst e
  refine ⟨a, x, b, rfl, ?_, ?_, h1, h2⟩
  · intro q hq
    rcases snoc_cases q with rfl | ⟨q, y, rfl⟩
    · exact h0
    · have := hnext q y (hq.trans (List.prefix_append _ _))
      have hy := ha y (hq.subset (by simp))
      rw [if_neg (by omega)] at this
      simpa using this
  · intro q hq
    rcases snoc_cases q with rfl | ⟨q, y, rfl⟩
    · have := hnext a x ⟨b, by simp⟩
      rw [if_pos h1] at this
      simpa using this
    · obtain ⟨d, rfl⟩ := hq
      have := hnext (a ++ x :: q) y ⟨d, by simp⟩
      have hy := clock_order (a := first :: a) (x := x) (by simpa using hc) y (by simp)
      rw [if_pos (by simp only [elapsed2] at h1 ⊢; omega)] at this
      simpa using this

/-- **C106**, TON. IN becomes TRUE in the call `first` and stays TRUE in the calls `run`, which go on for longer than PT. Then there is
a call `x` among them such that Q is FALSE in every call before it and TRUE from it on, and `x` ends more than PT and at most PT + D
after `first` began. -/
theorem C106_ton_reaction {D : Nat} {PT : Int} {pre run : List TimerIn} {first : TimerIn}
    (hrun : TrueRun (pre ++ first :: run) pre first run) (hpt : ConstantPreset PT (first :: run)) (hc : ClockOk (first :: run))
    (hD : ScansWithin D (first :: run)) (hlong : ∃ y ∈ run, elapsed2 first y > PT) :
    ∃ a x b, run = a ++ x :: b ∧
      (∀ q, q <+: a → outputs TON.call TimerParams.default (·.output) (pre ++ first :: q) = .ok false) ∧
      (∀ q, q <+: b → outputs TON.call TimerParams.default (·.output) (pre ++ first :: a ++ x :: q) = .ok true) ∧
      PT < elapsed2 first x ∧ elapsed2 first x ≤ PT + D := by
  obtain ⟨-, hpre, hf, hr⟩ := hrun
  refine reaction ?_ ?_ hpt.1.1 hc hD hlong
  · obtain ⟨s, hs, -, h1, -⟩ := ton_last pre first
    exact out_of hs (h1 hf hpre).1
  · rintro q y ⟨d, rfl⟩
    obtain ⟨s, hs, -, -, h1⟩ := ton_last (pre ++ first :: q) y
    refine out_of hs ?_
    rw [(h1 (hr y (by simp)) pre first q ⟨rfl, hpre, hf, fun z hz => hr z (by simp [hz])⟩).1]
    have hy := hpt.2 y (by simp)
    rw [hy, wrap_pt hpt.1]
    have := hpt.1
    by_cases h : elapsed2 first y > PT
    · rw [if_pos h]; simp only [elapsed2] at h; simp; omega
    · rw [if_neg h]; simp only [elapsed2] at h; simp; omega

/-- **C106**, TOF. IN falls in the call `first` and stays FALSE in the calls `run`, which go on for longer than PT. Then there is a call
`x` among them such that Q is TRUE in every call before it and FALSE from it on, and `x` ends more than PT and at most PT + D after
`first` began. -/
theorem C106_tof_reaction {D : Nat} {PT : Int} {pre run : List TimerIn} {first : TimerIn}
    (hrun : FalseRun (pre ++ first :: run) pre first run) (hpt : ConstantPreset PT (first :: run)) (hc : ClockOk (first :: run))
    (hD : ScansWithin D (first :: run)) (hlong : ∃ y ∈ run, elapsed2 first y > PT) :
    ∃ a x b, run = a ++ x :: b ∧
      (∀ q, q <+: a → outputs TOF.call TimerParams.default (·.output) (pre ++ first :: q) = .ok true) ∧
      (∀ q, q <+: b → outputs TOF.call TimerParams.default (·.output) (pre ++ first :: a ++ x :: q) = .ok false) ∧
      PT < elapsed2 first x ∧ elapsed2 first x ≤ PT + D := by
  obtain ⟨-, hpre, hf, hr⟩ := hrun
  refine reaction ?_ ?_ hpt.1.1 hc hD hlong
  · obtain ⟨s, hs, -, h1, -⟩ := tof_last pre first
    exact out_of hs (h1 hf hpre).1
  · rintro q y ⟨d, rfl⟩
    obtain ⟨s, hs, -, -, -, h1⟩ := tof_last (pre ++ first :: q) y
    refine out_of hs ?_
    rw [(h1 (hr y (by simp)) pre first q ⟨rfl, hpre, hf, fun z hz => hr z (by simp [hz])⟩).1]
    have hy := hpt.2 y (by simp)
    rw [hy, wrap_pt hpt.1]
    have := hpt.1
    by_cases h : elapsed2 first y > PT
    · rw [if_pos h]; simp only [elapsed2] at h; simp; omega
    · rw [if_neg h]; simp only [elapsed2] at h; simp; omega

/-- No call re-arms a pulse before PT is over. -/
private theorem noRearm_early {PT : Int} {start : TimerIn} : ∀ (a : List TimerIn) (b : Bool), (∀ y ∈ a, y.pt = PT) →
    (∀ y ∈ a, elapsed2 start y ≤ PT) → NoRearm start b a := by
  intro a
  induction a with
  | nil => intros; trivial
  | cons y a ih =>
    intro b hp h
    refine ⟨?_, ih _ (fun z hz => hp z (by simp [hz])) (fun z hz => h z (by simp [hz]))⟩
    rintro ⟨-, -, h'⟩
    have := h y (by simp)
    rw [hp y (by simp)] at h'
    omega

/-- **C106**, TP. An idle TP is started by the call `start` and then called for longer than PT, whatever IN does. Then there is a call
`x` such that Q is TRUE in `start` and in every call before `x`, and FALSE in `x`, and `x` ends more than PT and at most PT + D after
`start` began: the pulse is never shorter than PT and at most D longer. -/
theorem C106_tp_reaction {D : Nat} {PT : Int} {pre run : List TimerIn} {start : TimerIn} (hidle : TPIdle pre)
    (hst : start.input = true) (hpt : ConstantPreset PT (start :: run)) (hp : PresetOk pre) (hc : ClockOk (pre ++ start :: run))
    (hD : ScansWithin D (start :: run)) (hlong : ∃ y ∈ run, elapsed2 start y > PT) :
    ∃ a x b, run = a ++ x :: b ∧
      (∀ q, q <+: a → outputs TP.call TimerParams.default (·.output) (pre ++ start :: q) = .ok true) ∧
      outputs TP.call TimerParams.default (·.output) (pre ++ start :: a ++ [x]) = .ok false ∧
      PT < elapsed2 start x ∧ elapsed2 start x ≤ PT + D := by
  obtain ⟨a, x, b, e, ha, h1, h2⟩ := first_late hpt.1.1 run [] start (by simpa using hpt.1.1) hD
    (fun y hy => clock_call hc y (by simp [hy])) hlong (by simp)
  simp only [List.nil_append] at e
  subst e
  have sub : ∀ {l l' : List TimerIn}, l <+: l' → ClockOk l' → ClockOk l := by
    rintro l l' ⟨d, rfl⟩ h
    simp only [ClockOk, readings, List.flatMap_append, List.pairwise_append, List.mem_append] at h ⊢
    exact ⟨h.1.1, fun r hr => h.2 r (.inl hr)⟩
  have next : ∀ q y, q ++ [y] <+: a ++ x :: b → (∀ z ∈ q, elapsed2 start z ≤ PT) →
      ∃ s, tpAfter (pre ++ start :: q ++ [y]) = .ok s ∧ (s.output = true ↔ elapsed2 start y ≤ PT) := by
    intro q y hq hz
    have hm : ∀ z ∈ start :: q ++ [y], z.pt = PT := fun z hz => hpt.2 z (by
      rcases List.mem_cons.1 (by simpa using hz : z ∈ start :: (q ++ [y])) with rfl | h
      · simp
      · exact List.mem_cons_of_mem _ (hq.subset h))
    obtain ⟨s, hs, h1, -⟩ := C15_tp_pulse pre q start y hidle hst (noRearm_early q true (fun z hz => hm z (by simp [hz])) hz)
      (by
        intro z hz
        rw [List.append_assoc, List.mem_append] at hz
        rcases hz with hz | hz
        · exact hp z hz
        · rw [hm z hz]; exact hpt.1)
      (sub (by
        obtain ⟨d, e⟩ := hq
        exact ⟨d, by rw [← e]; simp⟩) hc)
    exact ⟨s, hs, by rw [h1, hm y (by simp)]⟩
  refine ⟨a, x, b, rfl, ?_, ?_, h1, h2⟩
  · intro q hq
    rcases snoc_cases q with rfl | ⟨q, y, rfl⟩
    · obtain ⟨s, hs, h, -⟩ := C15_tp_start pre start hidle hst hp
      exact out_of hs h
    · obtain ⟨s, hs, h⟩ := next q y (hq.trans (List.prefix_append _ _)) (fun z hz => ha z (hq.subset (by simp [hz])))
      exact out_of (by simpa using hs) (h.2 (ha y (hq.subset (by simp))))
  · obtain ⟨s, hs, h⟩ := next a x ⟨b, by simp⟩ ha
    refine out_of hs ?_
    rw [Bool.eq_false_iff, ne_eq, h]
    omega

/-- A TON with PT = 5 that is called every 2 ns: Q comes 6 ns after the start. -/
example : TrueRun [⟨true, 5, 10, 10⟩, ⟨true, 5, 12, 12⟩, ⟨true, 5, 14, 14⟩, ⟨true, 5, 16, 16⟩] [] ⟨true, 5, 10, 10⟩
      [⟨true, 5, 12, 12⟩, ⟨true, 5, 14, 14⟩, ⟨true, 5, 16, 16⟩] ∧
    ConstantPreset 5 [⟨true, 5, 10, 10⟩, ⟨true, 5, 12, 12⟩, ⟨true, 5, 14, 14⟩, ⟨true, 5, 16, 16⟩] ∧
    ClockOk [⟨true, 5, 10, 10⟩, ⟨true, 5, 12, 12⟩, ⟨true, 5, 14, 14⟩, ⟨true, 5, 16, 16⟩] ∧
    ScansWithin 2 [⟨true, 5, 10, 10⟩, ⟨true, 5, 12, 12⟩, ⟨true, 5, 14, 14⟩, ⟨true, 5, 16, 16⟩] ∧
    (∃ y ∈ [⟨true, 5, 12, 12⟩, ⟨true, 5, 14, 14⟩, ⟨true, 5, 16, 16⟩], elapsed2 ⟨true, 5, 10, 10⟩ y > 5) ∧
    outputs TON.call TimerParams.default (·.output) [⟨true, 5, 10, 10⟩, ⟨true, 5, 12, 12⟩, ⟨true, 5, 14, 14⟩] = .ok false ∧
    outputs TON.call TimerParams.default (·.output)
      [⟨true, 5, 10, 10⟩, ⟨true, 5, 12, 12⟩, ⟨true, 5, 14, 14⟩, ⟨true, 5, 16, 16⟩] = .ok true := by
  refine ⟨⟨rfl, .inl rfl, rfl, by simp⟩, ⟨by decide, by simp⟩, ⟨by decide, by decide⟩, ?_, ⟨⟨true, 5, 16, 16⟩, by simp, by decide⟩,
    by decide, by decide⟩
  rintro (_ | ⟨a, _ | ⟨b, _ | ⟨c, _ | ⟨d, l⟩⟩⟩⟩) x y r h <;> simp at h
  · obtain ⟨rfl, rfl, -⟩ := h; decide
  · obtain ⟨-, rfl, rfl, -⟩ := h; decide
  · obtain ⟨-, -, rfl, rfl, -⟩ := h; decide

/-- The same block called only at 12 and at 40: the reaction is as late as the calls are. -/
example : outputs TON.call TimerParams.default (·.output) [⟨true, 5, 10, 10⟩, ⟨true, 5, 12, 12⟩] = .ok false ∧
    outputs TON.call TimerParams.default (·.output) [⟨true, 5, 10, 10⟩, ⟨true, 5, 12, 12⟩, ⟨true, 5, 40, 40⟩] = .ok true := by decide

end Verif
