import Verif.Props.Timers
import Verif.Props.Scan
/-
C116: the usual clock generator `ton(IN := NOT ton.Q, PT := T)`, a TON that resets itself, under every schedule of scans.
-/
namespace Verif
open Spec TimerParams

namespace Spec

/-- The two clock readings of a scan. -/
abbrev ScanTime := Nat × Nat

/-- The clock never goes backwards, within a scan and from scan to scan. -/
def ScansOk (h : List ScanTime) : Prop := (h.flatMap fun c => [c.1, c.2]).Pairwise (· ≤ ·)

/-- From the first clock reading of a scan to the end of the next scan it takes at most `D`. -/
def ScanPeriod (D : Nat) (h : List ScanTime) : Prop := ∀ a x y b, h = a ++ x :: y :: b → y.2 ≤ x.1 + D

end Spec

/-- One scan of the program `ton(IN := NOT ton.Q, PT := T)` (a call of `TON`, src/timers.rs:109-131). -/
def clockGen (T : Int) (s : TimerParams) (c : ScanTime) : Res TimerParams := TON.call s ⟨!s.output, T, c.1, c.2⟩

/-- `ton.Q` after the scans `h`, or how the program ended. -/
def pulse (T : Int) (h : List ScanTime) : Res Bool := outputs (clockGen T) TimerParams.default (·.output) h

/-! ### The three phases of the generator -/

private inductive Phase where
  | idle
  | run (t0 : Nat)
  | fired

private def Phase.step (T : Int) : Phase → ScanTime → Phase
  | .idle, c => .run c.1
  | .run t0, c => if T < ((c.2 - t0 : Nat) : Int) then .fired else .run t0
  | .fired, _ => .idle

private def Phase.q : Phase → Bool
  | .fired => true
  | _ => false

private def InPhase (s : TimerParams) : Phase → Prop
  | .idle => s.start_time = none ∧ s.input_edge.current_value = false ∧ s.output = false
  | .run t0 => s.start_time = some t0 ∧ s.output = false
  | .fired => s.output = true

private theorem step_sim {T : Int} (hT : 0 ≤ T ∧ T < 2 ^ 63) (s : TimerParams) (p : Phase) (c : ScanTime) (h : InPhase s p) :
    ∃ s', clockGen T s c = .ok s' ∧ InPhase s' (p.step T c) := by
  have hw := wrap_pt hT
  cases p with
  | idle =>
    obtain ⟨h1, h2, h3⟩ := h
    refine ⟨_, by simp [clockGen, TON.call, TON, h3, is_running, h1, input_rising_edge, Signal.rising_edge, h2]; rfl, ?_⟩
    simp [Phase.step, InPhase, finish, start]
  | run t0 =>
    obtain ⟨h1, h3⟩ := h
    refine ⟨_, by simp [clockGen, TON.call, TON, h3, is_running, h1]; rfl, ?_⟩
    rw [Phase.step]
    by_cases hlt : T < ((c.2 - t0 : Nat) : Int)
    · rw [if_pos hlt]
      simp [InPhase, finish, update_elapsed_time, get_run_time, is_in_preset_range, hw, hlt]
    · rw [if_neg hlt]
      simp [InPhase, finish, update_elapsed_time, get_run_time, is_in_preset_range, hw]
      omega
  | fired =>
    have h3 : s.output = true := h
    refine ⟨_, by simp [clockGen, TON.call, TON, h3]; rfl, ?_⟩
    simp [Phase.step, InPhase, finish, reset, Signal.set]

private theorem run_sim {T : Int} (hT : 0 ≤ T ∧ T < 2 ^ 63) (h : List ScanTime) :
    ∃ s, runFB (clockGen T) TimerParams.default h = .ok s ∧ InPhase s (h.foldl (Phase.step T) .idle) := by
  refine snoc_induction ?_ ?_ h
  · exact ⟨_, rfl, rfl, rfl, rfl⟩
  · intro h c ih
    obtain ⟨s, e, hs⟩ := ih
    rw [runFB_snoc_ok e, List.foldl_append]
    exact step_sim hT s _ c hs

private theorem pulse_eq {T : Int} (hT : 0 ≤ T ∧ T < 2 ^ 63) (h : List ScanTime) :
    pulse T h = .ok (h.foldl (Phase.step T) .idle).q := by
  obtain ⟨s, e, hs⟩ := run_sim hT h
  unfold pulse outputs
  rw [e, Res.bind_ok]
  congr 1
  revert hs
  cases h.foldl (Phase.step T) .idle with
  | idle => exact fun h => h.2.2
  | run t0 => exact fun h => h.2
  | fired => exact fun h => h

/-! ### C116 -/

/-- **C116**: the generator never aborts the program, and a pulse is exactly one scan long. -/
theorem C116_one_scan (T : Int) (hT : 0 ≤ T ∧ T < 2 ^ 63) (h : List ScanTime) (c : ScanTime) :
    (∃ q, pulse T h = .ok q) ∧ (pulse T h = .ok true → pulse T (h ++ [c]) = .ok false) := by
  rw [pulse_eq hT, pulse_eq hT, List.foldl_append]
  refine ⟨⟨_, rfl⟩, ?_⟩
  cases h.foldl (Phase.step T) .idle <;> intro h <;> first | rfl | cases h

private def StartedFrom (b : Nat) : Phase → Prop
  | .run t0 => b ≤ t0
  | _ => True

private theorem started_from {T : Int} {b : Nat} : ∀ (m : List ScanTime) (p : Phase), StartedFrom b p → (∀ c ∈ m, b ≤ c.1) →
    StartedFrom b (m.foldl (Phase.step T) p) := by
  intro m
  induction m with
  | nil => intro p hp _; exact hp
  | cons c m ih =>
    intro p hp hm
    refine ih _ ?_ fun d hd => hm d (by simp [hd])
    cases p with
    | idle => exact hm c (by simp)
    | run t0 =>
      rw [Phase.step]
      split
      · trivial
      · exact hp
    | fired => trivial

/-- **C116**: two pulses are more than `T` apart. -/
theorem C116_apart (T : Int) (hT : 0 ≤ T ∧ T < 2 ^ 63) (h m : List ScanTime) (x y : ScanTime) (hc : ScansOk (h ++ x :: m ++ [y]))
    (hx : pulse T (h ++ [x]) = .ok true) (hy : pulse T (h ++ x :: m ++ [y]) = .ok true) : (y.2 : Int) - x.2 > T := by
  rw [pulse_eq hT] at hx hy
  have hm : ∀ c ∈ m ++ [y], x.2 ≤ c.1 := by
    intro c hcm
    obtain ⟨a, b, e⟩ := List.append_of_mem hcm
    rw [List.append_assoc, List.cons_append, e] at hc
    simp only [ScansOk, List.flatMap_append, List.flatMap_cons, List.pairwise_append, List.pairwise_cons, List.mem_append,
      List.mem_cons] at hc
    exact hc.2.1.2.2 _ (.inr (.inl rfl)) _ (.inr (.inl (.inl rfl)))
  have hs := started_from (T := T) (b := x.2) m ((h ++ [x]).foldl (Phase.step T) .idle) (by
    revert hx
    cases (h ++ [x]).foldl (Phase.step T) .idle <;> intro hx <;> first | trivial | (cases hx)) fun c hc => hm c (by simp [hc])
  rw [← List.foldl_append] at hs
  have e : h ++ x :: m ++ [y] = (h ++ [x] ++ m) ++ [y] := by simp
  rw [e, List.foldl_append] at hy
  revert hs hy
  cases (h ++ [x] ++ m).foldl (Phase.step T) .idle with
  | idle => intro hy; exact absurd (Res.ok.inj hy) Bool.false_ne_true
  | fired => intro hy; exact absurd (Res.ok.inj hy) Bool.false_ne_true
  | run t0 =>
    intro hy hs
    have hs : x.2 ≤ t0 := hs
    simp only [List.foldl_cons, List.foldl_nil, Phase.step] at hy
    split at hy
    · have := hm y (by simp)
      omega
    · cases hy

private theorem first_fire {T : Int} {D t0 : Nat} : ∀ (m : List ScanTime) (prev : ScanTime), ((prev.1 : Int) - t0 ≤ T) → t0 ≤ prev.1 →
    ScanPeriod D (prev :: m) → ScansOk (prev :: m) → (∃ z ∈ m, T < (z.2 : Int) - t0) →
    ∃ a y b, m = a ++ y :: b ∧ a.foldl (Phase.step T) (.run t0) = .run t0 ∧
      (∀ q, q <+: a → q.foldl (Phase.step T) (.run t0) = .run t0) ∧ T < (y.2 : Int) - t0 ∧ (y.2 : Int) - t0 ≤ T + D := by
  intro m
  induction m with
  | nil => rintro _ _ _ _ _ ⟨z, hz, _⟩; simp at hz
  | cons c m ih =>
    rintro prev h1 h2 hD hc ⟨z, hz, hzT⟩
    have hcD := hD [] prev c m rfl
    have hc' : prev.1 ≤ prev.2 ∧ prev.2 ≤ c.1 ∧ c.1 ≤ c.2 := by
      have := hc
      simp only [ScansOk, List.flatMap_cons, List.cons_append, List.nil_append, List.pairwise_cons, List.mem_cons] at this
      exact ⟨this.1 _ (.inl rfl), this.2.1 _ (.inl rfl), this.2.2.1 _ (.inl rfl)⟩
    by_cases hfire : T < (c.2 : Int) - t0
    · refine ⟨[], c, m, rfl, rfl, ?_, hfire, by omega⟩
      intro q hq
      rw [List.prefix_nil.1 hq]; rfl
    · have hz' : z ∈ m := by
        rcases List.mem_cons.1 hz with rfl | hz
        · exact absurd hzT hfire
        · exact hz
      have hstep : Phase.step T (.run t0) c = .run t0 := by
        rw [Phase.step, if_neg (by omega)]
      obtain ⟨a, y, b, e, ha, hq, hy⟩ := ih c (by omega) (by omega) (fun a x y b e => hD (prev :: a) x y b (by rw [e]; rfl))
        (by
          have := hc
          simp only [ScansOk, List.flatMap_cons, List.cons_append, List.nil_append, List.pairwise_cons] at this
          simpa only [ScansOk, List.flatMap_cons, List.cons_append, List.nil_append, List.pairwise_cons] using this.2.2)
        ⟨z, hz', hzT⟩
      refine ⟨c :: a, y, b, by rw [e]; rfl, by rw [List.foldl_cons, hstep, ha], ?_, hy⟩
      intro q hq'
      cases q with
      | nil => rfl
      | cons d q =>
        obtain ⟨rfl, hq''⟩ := List.cons_prefix_cons.1 hq'
        rw [List.foldl_cons, hstep]
        exact hq q hq''

/-- **C116**: with scans of at most `D`, the first pulse comes within `T + D` of the first scan. -/
theorem C116_first (T : Int) (hT : 0 ≤ T ∧ T < 2 ^ 63) (D : Nat) (x : ScanTime) (m : List ScanTime) (hc : ScansOk (x :: m))
    (hD : ScanPeriod D (x :: m)) (hlong : ∃ z ∈ m, (z.2 : Int) - x.1 > T) :
    ∃ a y b, m = a ++ y :: b ∧ (∀ q, q <+: a → pulse T (x :: q) = .ok false) ∧ pulse T (x :: a ++ [y]) = .ok true ∧
      T < (y.2 : Int) - x.1 ∧ (y.2 : Int) - x.1 ≤ T + D := by
  obtain ⟨a, y, b, e, ha, hq, h1, h2⟩ := first_fire (t0 := x.1) m x (by omega) (Nat.le_refl _) hD hc hlong
  refine ⟨a, y, b, e, ?_, ?_, h1, h2⟩
  · intro q hqa
    rw [pulse_eq hT, List.foldl_cons]
    show Res.ok (Phase.q (q.foldl _ (.run x.1))) = _
    rw [hq q hqa]; rfl
  · rw [pulse_eq hT, List.cons_append, List.foldl_cons, List.foldl_append]
    show Res.ok (Phase.q ([y].foldl _ (a.foldl _ (.run x.1)))) = _
    rw [ha, List.foldl_cons, List.foldl_nil, Phase.step, if_pos (by omega)]
    rfl

/-- **C116**: with scans of at most `D`, the next pulse comes within `T + 3·D` of a pulse, and none comes before. -/
theorem C116_next (T : Int) (hT : 0 ≤ T ∧ T < 2 ^ 63) (D : Nat) (h : List ScanTime) (x : ScanTime) (m : List ScanTime)
    (hx : pulse T (h ++ [x]) = .ok true) (hc : ScansOk (x :: m)) (hD : ScanPeriod D (x :: m))
    (hlong : ∃ z ∈ m, (z.2 : Int) - x.2 > T + 3 * D) :
    ∃ a y b, m = a ++ y :: b ∧ (∀ q, q ≠ [] → q <+: a → pulse T (h ++ x :: q) = .ok false) ∧
      pulse T (h ++ x :: a ++ [y]) = .ok true ∧ T < (y.2 : Int) - x.2 ∧ (y.2 : Int) - x.2 ≤ T + 3 * D := by
  have hp : (h ++ [x]).foldl (Phase.step T) .idle = .fired := by
    rw [pulse_eq hT] at hx
    revert hx
    cases (h ++ [x]).foldl (Phase.step T) .idle <;> intro hx <;> first | rfl | cases hx
  have split : ∀ q, pulse T (h ++ x :: q) = .ok (q.foldl (Phase.step T) .fired).q := by
    intro q
    rw [pulse_eq hT, show h ++ x :: q = (h ++ [x]) ++ q by simp, List.foldl_append, hp]
  obtain ⟨z, hz, hzT⟩ := hlong
  have sub : ∀ {c : ScanTime} {l : List ScanTime}, ScansOk (c :: l) → ScansOk l ∧ c.1 ≤ c.2 ∧ ∀ d ∈ l, c.2 ≤ d.1 := by
    intro c l hc
    simp only [ScansOk, List.flatMap_cons, List.cons_append, List.nil_append, List.pairwise_cons, List.mem_cons] at hc
    refine ⟨hc.2.2, hc.1 _ (.inl rfl), fun d hd => hc.2.1 _ ?_⟩
    exact List.mem_flatMap.2 ⟨d, hd, by simp⟩
  have tail : ∀ {c : ScanTime} {l : List ScanTime}, ScanPeriod D (c :: l) → ScanPeriod D l :=
    fun {c l} h a x y b e => h (c :: a) x y b (by rw [e]; rfl)
  cases m with
  | nil => simp at hz
  | cons r m =>
    have hr := hD [] x r m rfl
    obtain ⟨hc1, hx12, hxm⟩ := sub hc
    have hxr := hxm r (by simp)
    cases m with
    | nil => simp only [List.mem_singleton] at hz; subst hz; omega
    | cons s m =>
      have hs := tail hD [] r s m rfl
      obtain ⟨hc2, hr12, hrm⟩ := sub hc1
      obtain ⟨hc3, hs12, hsm⟩ := sub hc2
      have hrs := hrm s (by simp)
      have hzm : z ∈ m := by
        rcases List.mem_cons.1 hz with rfl | hz
        · omega
        rcases List.mem_cons.1 hz with rfl | hz
        · omega
        exact hz
      obtain ⟨a, y, b, e, ha, hq, h1, h2⟩ := first_fire (T := T) (t0 := s.1) m s (by omega) (Nat.le_refl _) (tail (tail hD)) hc2
        ⟨z, hzm, by omega⟩
      refine ⟨r :: s :: a, y, b, by rw [e]; rfl, ?_, ?_, by omega, by omega⟩
      · intro q hq0 hqa
        rw [split]
        cases q with
        | nil => exact absurd rfl hq0
        | cons c q =>
          obtain ⟨rfl, hqa'⟩ := List.cons_prefix_cons.1 hqa
          cases q with
          | nil => rfl
          | cons d q =>
            obtain ⟨rfl, hqb⟩ := List.cons_prefix_cons.1 hqa'
            show Res.ok (Phase.q (q.foldl _ (.run d.1))) = _
            rw [hq q hqb]; rfl
      · rw [List.append_assoc, List.cons_append, split]
        show Res.ok (Phase.q ((a ++ [y]).foldl _ (.run s.1))) = _
        rw [List.foldl_append, ha, List.foldl_cons, List.foldl_nil, Phase.step, if_pos (by omega)]
        rfl

/-- The number of scans of `h` that end with `ton.Q = TRUE`. -/
def pulseCount (T : Int) (h : List ScanTime) : Nat := (List.range h.length).countP fun k => pulse T (h.take (k + 1)) == .ok true

private theorem pulses_snoc (T : Int) (h : List ScanTime) (c : ScanTime) :
    pulseCount T (h ++ [c]) = pulseCount T h + if pulse T (h ++ [c]) = .ok true then 1 else 0 := by
  unfold pulseCount
  rw [List.length_append, List.length_singleton, List.range_succ, List.countP_append]
  congr 1
  · refine List.countP_congr fun k hk => ?_
    rw [List.take_append_of_le_length (by have := List.mem_range.1 hk; omega)]
  · rw [List.countP_singleton, List.take_of_length_le (by simp)]
    simp

private theorem pulses_phase {T : Int} (hT : 0 ≤ T ∧ T < 2 ^ 63) (h : List ScanTime) (c : ScanTime) :
    pulseCount T (h ++ [c]) = pulseCount T h + if (Phase.step T (h.foldl (Phase.step T) .idle) c).q then 1 else 0 := by
  rw [pulses_snoc, pulse_eq hT, List.foldl_append, List.foldl_cons, List.foldl_nil]
  by_cases hq : (Phase.step T (h.foldl (Phase.step T) .idle) c).q = true
  · rw [if_pos hq, if_pos (by rw [hq])]
  · rw [if_neg hq, if_neg (by simpa using hq)]

/-- What is known about the phase when `n` pulses have been given since `f` and the last scan was `l`. -/
private def CountInv (T : Int) (D f : Nat) (n : Nat) (l : ScanTime) : Phase → Prop
  | .idle => n * T + f ≤ l.2 ∧ (l.2 : Int) ≤ f + n * (T + 3 * D) + D
  | .run t0 => n * T + f ≤ t0 ∧ t0 ≤ l.1 ∧ (t0 : Int) ≤ f + n * (T + 3 * D) + 2 * D ∧ (l.1 : Int) ≤ t0 + T
  | .fired => n * T + f ≤ l.2 ∧ (l.2 : Int) ≤ f + n * (T + 3 * D)

private theorem scans_pre {h : List ScanTime} {l c : ScanTime} (hc : ScansOk (h ++ [l] ++ [c])) :
    ScansOk (h ++ [l]) ∧ l.1 ≤ l.2 ∧ l.2 ≤ c.1 ∧ c.1 ≤ c.2 := by
  have := hc
  simp only [ScansOk, List.flatMap_append, List.flatMap_cons, List.flatMap_nil, List.append_nil, List.pairwise_append,
    List.pairwise_cons, List.mem_append, List.mem_cons] at this
  refine ⟨?_, this.1.2.1.1 _ (.inl rfl), this.2.2 _ (.inr (.inr (.inl rfl))) _ (.inl rfl), this.2.1.1 _ (.inl rfl)⟩
  unfold ScansOk at hc ⊢
  rw [List.flatMap_append] at hc
  exact (List.pairwise_append.1 hc).1

private theorem count_step {T : Int} (hT : 0 ≤ T ∧ T < 2 ^ 63) {D f n : Nat} {l c : ScanTime} {p : Phase} (h : CountInv T D f n l p)
    (h1 : l.1 ≤ l.2) (h2 : l.2 ≤ c.1) (h3 : c.1 ≤ c.2) (h4 : c.2 ≤ l.1 + D) :
    CountInv T D f (n + if (p.step T c).q then 1 else 0) c (p.step T c) ∧
      (n * T : Int) + (if (p.step T c).q then T else 0) + f ≤ c.2 ∧ (c.2 : Int) ≤ f + n * (T + 3 * D) + (T + 3 * D) := by
  cases p with
  | idle =>
    obtain ⟨a, b⟩ := h
    simp only [Phase.step, Phase.q, CountInv, Bool.false_eq_true, if_false, Nat.add_zero]
    omega
  | run t0 =>
    obtain ⟨a, b, d, e⟩ := h
    rw [Phase.step]
    split
    · simp only [Phase.q, CountInv, if_true]
      rw [show ((n + 1 : Nat) : Int) = (n : Int) + 1 by omega, Int.add_mul, Int.add_mul, Int.one_mul, Int.one_mul]
      omega
    · simp only [Phase.q, CountInv, Bool.false_eq_true, if_false, Nat.add_zero]
      omega
  | fired =>
    obtain ⟨a, b⟩ := h
    simp only [Phase.step, Phase.q, CountInv, Bool.false_eq_true, if_false, Nat.add_zero]
    omega

private theorem count_inv {T : Int} (hT : 0 ≤ T ∧ T < 2 ^ 63) (D : Nat) (x : ScanTime) (m : List ScanTime) :
    ∀ h l, x :: m = h ++ [l] → ScansOk (x :: m) → ScanPeriod D (x :: m) →
      CountInv T D x.1 (pulseCount T (x :: m)) l ((x :: m).foldl (Phase.step T) .idle) := by
  refine snoc_induction ?_ ?_ m
  · intro h l e _ _
    have e' := List.append_inj' (show [] ++ [x] = h ++ [l] from e) rfl
    have : x = l := by simpa using e'.2
    subst this
    have hz : pulseCount T [x] = 0 := by
      have := pulses_snoc T [] x
      rw [List.nil_append, pulse_eq hT] at this
      rw [this]; rfl
    rw [hz]
    simp only [List.foldl_cons, List.foldl_nil, Phase.step, CountInv]
    omega
  · intro m c ih h l e hc hD
    rw [← List.cons_append] at e hc hD ⊢
    have e' := List.append_inj' e rfl
    have : c = l := by simpa using e'.2
    subst this
    rcases snoc_cases (x :: m) with h0 | ⟨h', l', e2⟩
    · cases h0
    rw [e2] at hc
    obtain ⟨hc', h1, h2, h3⟩ := scans_pre hc
    have h4 := hD h' l' c [] (by rw [e2]; simp)
    have := (count_step hT (c := c) (ih h' l' e2 (e2 ▸ hc') fun a x y b e => hD a x y (b ++ [c]) (by rw [e]; simp)) h1 h2 h3 h4).1
    rw [pulses_phase hT, List.foldl_append]
    exact this

/-- **C116**: in any time the generator gives at most one pulse per `T`, and with scans of at most `D` at least one pulse
per `T + 3·D` (up to the one that is due). -/
theorem C116_rate (T : Int) (hT : 0 ≤ T ∧ T < 2 ^ 63) (D : Nat) (x : ScanTime) (m : List ScanTime) (y : ScanTime)
    (hc : ScansOk (x :: m ++ [y])) (hD : ScanPeriod D (x :: m ++ [y])) :
    pulseCount T (x :: m ++ [y]) * T ≤ (y.2 : Int) - x.1 ∧
    (y.2 : Int) - x.1 ≤ (pulseCount T (x :: m ++ [y]) + 1) * (T + 3 * D) := by
  rcases snoc_cases (x :: m) with h0 | ⟨h', l', e2⟩
  · cases h0
  have hc0 := hc
  rw [e2] at hc0
  obtain ⟨hc', h1, h2, h3⟩ := scans_pre hc0
  have h4 := hD h' l' y [] (by rw [e2]; simp)
  obtain ⟨-, a, b⟩ := count_step hT (c := y) (count_inv hT D x m h' l' e2 (e2 ▸ hc') fun a x y' b e => hD a x y' (b ++ [y]) (by rw [e]; simp))
    h1 h2 h3 h4
  rw [pulses_phase hT]
  by_cases hq : (Phase.step T ((x :: m).foldl (Phase.step T) .idle) y).q = true
  · rw [if_pos hq] at a
    rw [if_pos hq, show ((pulseCount T (x :: m) + 1 : Nat) : Int) = (pulseCount T (x :: m) : Int) + 1 by omega, Int.add_mul, Int.add_mul,
      Int.add_mul, Int.one_mul, Int.one_mul]
    omega
  · rw [if_neg hq] at a
    rw [if_neg hq, Nat.add_zero, Int.add_mul, Int.one_mul]
    omega

/-- A generator with T = 10 and scans every 4: pulses at 12 and 32. -/
example : ScansOk [(0, 0), (4, 4), (8, 8), (12, 12), (16, 16), (20, 20), (24, 24), (28, 28), (32, 32), (36, 36)] ∧
    pulse 10 [(0, 0), (4, 4), (8, 8)] = .ok false ∧ pulse 10 [(0, 0), (4, 4), (8, 8), (12, 12)] = .ok true ∧
    pulse 10 [(0, 0), (4, 4), (8, 8), (12, 12), (16, 16)] = .ok false ∧
    pulse 10 [(0, 0), (4, 4), (8, 8), (12, 12), (16, 16), (20, 20), (24, 24), (28, 28)] = .ok false ∧
    pulse 10 [(0, 0), (4, 4), (8, 8), (12, 12), (16, 16), (20, 20), (24, 24), (28, 28), (32, 32)] = .ok true ∧
    pulse 10 [(0, 0), (4, 4), (8, 8), (12, 12), (16, 16), (20, 20), (24, 24), (28, 28), (32, 32), (36, 36)] = .ok false ∧
    pulseCount 10 [(0, 0), (4, 4), (8, 8), (12, 12), (16, 16), (20, 20), (24, 24), (28, 28), (32, 32), (36, 36)] = 2 := by
  refine ⟨by unfold ScansOk; decide, by decide⟩

/-- These scans have a period of at most 4. -/
example : ScanPeriod 4 [(0, 0), (4, 4), (8, 8), (12, 12)] := by
  intro a x y b e
  match a, e with
  | [], e => simp at e; obtain ⟨rfl, rfl, -⟩ := e; decide
  | [_], e => simp at e; obtain ⟨-, rfl, rfl, -⟩ := e; decide
  | [_, _], e => simp at e; obtain ⟨-, -, rfl, rfl, -⟩ := e; decide
  | [_, _, _], e => simp at e
  | _ :: _ :: _ :: _ :: _, e => simp at e

end Verif
