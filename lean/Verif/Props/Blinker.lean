import Verif.Props.DelayChain
/-
C129: the blinker made of two on-delays, `t1(IN := NOT t2.Q, PT := T1); t2(IN := t1.Q, PT := T2); lamp := t1.Q;`, under every schedule
of scans.
-/
namespace Verif
open Spec TimerParams

namespace Spec

/-- The clock readings of one scan of the program: those of `t1` and then those of `t2`. -/
structure BlinkScan where
  a1 : Nat
  a2 : Nat
  b1 : Nat
  b2 : Nat

/-- The clock never goes backwards, within a scan and from scan to scan. -/
def BlinkClock (h : List BlinkScan) : Prop := (h.flatMap fun c => [c.a1, c.a2, c.b1, c.b2]).Pairwise (· ≤ ·)

/-- From the beginning of a scan to the end of the next scan it takes at most `D`. -/
def BlinkPeriod (D : Nat) (h : List BlinkScan) : Prop := ∀ a x y b, h = a ++ x :: y :: b → y.b2 ≤ x.a1 + D

end Spec

/-- One scan of the program `t1(IN := NOT t2.Q, PT := T1); t2(IN := t1.Q, PT := T2);` (two calls of `TON`, src/timers.rs:109-131). -/
def blinker (T1 T2 : Int) (s : TimerParams × TimerParams) (c : BlinkScan) : Res (TimerParams × TimerParams) := do
  let s1 ← TON.call s.1 ⟨!s.2.output, T1, c.a1, c.a2⟩
  let s2 ← TON.call s.2 ⟨s1.output, T2, c.b1, c.b2⟩
  pure (s1, s2)

/-- `lamp`, that is `t1.Q`, after the scans `h`, or how the program ended. -/
def lamp (T1 T2 : Int) (h : List BlinkScan) : Res Bool :=
  outputs (blinker T1 T2) (TimerParams.default, TimerParams.default) (·.1.output) h

/-! ### The four phases of the blinker -/

private inductive Blink where
  | idle
  | wait (t0 : Nat)
  | on (s0 : Nat)
  | last

private def Blink.step (T1 T2 : Int) : Blink → BlinkScan → Blink
  | .idle, c => .wait c.a1
  | .wait t0, c => if T1 < ((c.a2 - t0 : Nat) : Int) then .on c.b1 else .wait t0
  | .on s0, c => if T2 < ((c.b2 - s0 : Nat) : Int) then .last else .on s0
  | .last, _ => .idle

private def Blink.lamp : Blink → Bool
  | .idle => false
  | .wait _ => false
  | .on _ => true
  | .last => true

private def InBlink (T1 : Int) (s : TimerParams × TimerParams) (now : Nat) : Blink → Prop
  | .idle => TonIs s.1 none ∧ TonIs s.2 none ∧ s.1.output = false ∧ s.2.output = false
  | .wait t0 => TonIs s.1 (some t0) ∧ TonIs s.2 none ∧ s.1.output = false ∧ s.2.output = false
  | .on s0 => (∃ t0, TonIs s.1 (some t0) ∧ T1 < ((now - t0 : Nat) : Int)) ∧ TonIs s.2 (some s0) ∧ s.1.output = true ∧ s.2.output = false
  | .last => (∃ t0, TonIs s.1 (some t0)) ∧ (∃ s0, TonIs s.2 (some s0)) ∧ s.1.output = true ∧ s.2.output = true

private theorem blink_step {T1 T2 : Int} (h1 : 0 ≤ T1 ∧ T1 < 2 ^ 63) (h2 : 0 ≤ T2 ∧ T2 < 2 ^ 63) (s : TimerParams × TimerParams)
    (p : Blink) (now : Nat) (c : BlinkScan) (h : InBlink T1 s now p) (hc : now ≤ c.a2 ∧ c.a2 ≤ c.b2) :
    ∃ s', blinker T1 T2 s c = .ok s' ∧ InBlink T1 s' c.b2 (p.step T1 T2 c) := by
  have run : ∀ st1 st2, TonIs s.1 st1 → TonIs s.2 st2 → ∃ s', blinker T1 T2 s c = .ok s' ∧
      TonIs s'.1 (tonNext st1 (!s.2.output) c.a1) ∧ s'.1.output = tonQ T1 st1 (!s.2.output) c.a2 ∧
      TonIs s'.2 (tonNext st2 s'.1.output c.b1) ∧ s'.2.output = tonQ T2 st2 s'.1.output c.b2 := by
    intro st1 st2 i1 i2
    obtain ⟨s1, e1, t1, q1⟩ := ton_is h1 i1 (!s.2.output) c.a1 c.a2
    obtain ⟨s2, e2, t2, q2⟩ := ton_is h2 i2 s1.output c.b1 c.b2
    refine ⟨(s1, s2), ?_, t1, q1, t2, q2⟩
    simp only [blinker, e1, e2, Res.bind_ok, Res.pure_eq]
  cases p with
  | idle =>
    obtain ⟨i1, i2, o1, o2⟩ := h
    obtain ⟨s', e, t1, q1, t2, q2⟩ := run _ _ i1 i2
    refine ⟨s', e, ?_⟩
    rw [o2] at t1 q1
    have q1' : s'.1.output = false := q1
    rw [q1'] at t2 q2
    exact ⟨t1, t2, q1', q2⟩
  | wait t0 =>
    obtain ⟨i1, i2, o1, o2⟩ := h
    obtain ⟨s', e, t1, q1, t2, q2⟩ := run _ _ i1 i2
    refine ⟨s', e, ?_⟩
    rw [o2] at t1 q1
    rw [Blink.step]
    by_cases hlt : T1 < ((c.a2 - t0 : Nat) : Int)
    · have q1' : s'.1.output = true := by rw [q1]; simp [tonQ, hlt]
      rw [q1'] at t2 q2
      rw [if_pos hlt]
      exact ⟨⟨t0, t1, by omega⟩, t2, q1', q2⟩
    · have q1' : s'.1.output = false := by rw [q1]; simp [tonQ]; omega
      rw [q1'] at t2 q2
      rw [if_neg hlt]
      exact ⟨t1, t2, q1', q2⟩
  | on s0 =>
    obtain ⟨⟨t0, i1, hlt⟩, i2, o1, o2⟩ := h
    obtain ⟨s', e, t1, q1, t2, q2⟩ := run _ _ i1 i2
    refine ⟨s', e, ?_⟩
    rw [o2] at t1 q1
    have q1' : s'.1.output = true := by rw [q1]; simp [tonQ]; omega
    rw [q1'] at t2 q2
    rw [Blink.step]
    by_cases hlt : T2 < ((c.b2 - s0 : Nat) : Int)
    · rw [if_pos hlt]
      exact ⟨⟨t0, t1⟩, ⟨s0, t2⟩, q1', by rw [q2]; simp [tonQ, hlt]⟩
    · rw [if_neg hlt]
      exact ⟨⟨t0, t1, by omega⟩, t2, q1', by rw [q2]; simp [tonQ]; omega⟩
  | last =>
    obtain ⟨⟨t0, i1⟩, ⟨s0, i2⟩, o1, o2⟩ := h
    obtain ⟨s', e, t1, q1, t2, q2⟩ := run _ _ i1 i2
    refine ⟨s', e, ?_⟩
    rw [o2] at t1 q1
    have q1' : s'.1.output = false := q1
    rw [q1'] at t2 q2
    exact ⟨t1, t2, q1', q2⟩

private theorem clock_cons {c : BlinkScan} {h : List BlinkScan} (hc : BlinkClock (c :: h)) :
    (c.a1 ≤ c.a2 ∧ c.a2 ≤ c.b1 ∧ c.b1 ≤ c.b2) ∧ (∀ d ∈ h, c.b2 ≤ d.a1) ∧ BlinkClock h := by
  simp only [BlinkClock, List.flatMap_cons, List.cons_append, List.nil_append, List.pairwise_cons, List.mem_cons, List.mem_flatMap,
    List.not_mem_nil, or_false] at hc
  refine ⟨⟨hc.1 _ (.inl rfl), hc.2.1 _ (.inl rfl), hc.2.2.1 _ (.inl rfl)⟩, fun d hd => hc.2.2.2.1 _ ⟨d, hd, .inl rfl⟩, hc.2.2.2.2⟩

private theorem clock_right {a b : List BlinkScan} (hc : BlinkClock (a ++ b)) : BlinkClock b := by
  simp only [BlinkClock, List.flatMap_append, List.pairwise_append] at hc
  exact hc.2.1

private theorem clock_left {a b : List BlinkScan} (hc : BlinkClock (a ++ b)) : BlinkClock a := by
  simp only [BlinkClock, List.flatMap_append, List.pairwise_append] at hc
  exact hc.1

private theorem blink_run {T1 T2 : Int} (h1 : 0 ≤ T1 ∧ T1 < 2 ^ 63) (h2 : 0 ≤ T2 ∧ T2 < 2 ^ 63) : ∀ (m : List BlinkScan)
    (s : TimerParams × TimerParams) (p : Blink) (now : Nat), InBlink T1 s now p → BlinkClock m → (∀ c ∈ m, now ≤ c.a1) →
    ∃ s' now', runFB (blinker T1 T2) s m = .ok s' ∧ InBlink T1 s' now' (m.foldl (Blink.step T1 T2) p) := by
  intro m
  induction m with
  | nil => intro s p now h _ _; exact ⟨s, now, rfl, h⟩
  | cons c m ih =>
    intro s p now h hc hn
    obtain ⟨hc1, hc2, hc3⟩ := clock_cons hc
    have := hn c (by simp)
    obtain ⟨s', e, h'⟩ := blink_step h1 h2 s p now c h (by omega)
    obtain ⟨s'', now', e', h''⟩ := ih s' _ c.b2 h' hc3 hc2
    refine ⟨s'', now', ?_, h''⟩
    rw [runFB, List.foldlM_cons, e]
    exact e'

private def blinkPhase (T1 T2 : Int) (h : List BlinkScan) : Blink := h.foldl (Blink.step T1 T2) .idle

private theorem phase_append (T1 T2 : Int) (h m : List BlinkScan) :
    blinkPhase T1 T2 (h ++ m) = m.foldl (Blink.step T1 T2) (blinkPhase T1 T2 h) := List.foldl_append

private theorem lamp_eq {T1 T2 : Int} (h1 : 0 ≤ T1 ∧ T1 < 2 ^ 63) (h2 : 0 ≤ T2 ∧ T2 < 2 ^ 63) {h : List BlinkScan} (hc : BlinkClock h) :
    lamp T1 T2 h = .ok (blinkPhase T1 T2 h).lamp := by
  obtain ⟨s', now', e, hs⟩ := blink_run h1 h2 h (TimerParams.default, TimerParams.default) .idle 0
    ⟨⟨rfl, fun _ => rfl⟩, ⟨rfl, fun _ => rfl⟩, rfl, rfl⟩ hc fun _ _ => Nat.zero_le _
  unfold lamp outputs
  rw [e, Res.bind_ok]
  congr 1
  change InBlink T1 s' now' (blinkPhase T1 T2 h) at hs
  revert hs
  cases blinkPhase T1 T2 h with
  | idle => exact fun h => h.2.2.1
  | wait t0 => exact fun h => h.2.2.1
  | on s0 => exact fun h => h.2.2.1
  | last => exact fun h => h.2.2.1

/-- The phase in which the lamp goes on. -/
private theorem turns_on {T1 T2 : Int} {h : List BlinkScan} {x : BlinkScan} (h0 : (blinkPhase T1 T2 h).lamp = false)
    (h1 : (blinkPhase T1 T2 (h ++ [x])).lamp = true) : blinkPhase T1 T2 (h ++ [x]) = .on x.b1 := by
  rw [phase_append] at h1 ⊢
  revert h0 h1
  cases blinkPhase T1 T2 h with
  | idle => intro _ h1; cases h1
  | wait t0 =>
    intro _ h1
    simp only [List.foldl_cons, List.foldl_nil, Blink.step] at h1 ⊢
    split at h1
    · next hlt => rw [if_pos hlt]
    · cases h1
  | on s0 => intro h0; cases h0
  | last => intro h0; cases h0

private theorem turns_off {T1 T2 : Int} {h : List BlinkScan} {x : BlinkScan} (h0 : (blinkPhase T1 T2 h).lamp = true)
    (h1 : (blinkPhase T1 T2 (h ++ [x])).lamp = false) : blinkPhase T1 T2 (h ++ [x]) = .idle := by
  rw [phase_append] at h1 ⊢
  revert h0 h1
  cases blinkPhase T1 T2 h with
  | idle => intro h0; cases h0
  | wait t0 => intro h0; cases h0
  | on s0 =>
    intro _ h1
    simp only [List.foldl_cons, List.foldl_nil, Blink.step] at h1
    split at h1 <;> cases h1
  | last => intros; rfl

private theorem stays_on {T1 T2 : Int} {s0 : Nat} : ∀ m : List BlinkScan, (∀ c ∈ m, ¬ T2 < ((c.b2 - s0 : Nat) : Int)) →
    m.foldl (Blink.step T1 T2) (.on s0) = .on s0 := by
  intro m
  induction m with
  | nil => intro _; rfl
  | cons c m ih =>
    intro hm
    rw [List.foldl_cons, Blink.step, if_neg (hm c (by simp))]
    exact ih fun d hd => hm d (by simp [hd])

private theorem stays_wait {T1 T2 : Int} {t0 : Nat} : ∀ m : List BlinkScan, (∀ c ∈ m, ¬ T1 < ((c.a2 - t0 : Nat) : Int)) →
    m.foldl (Blink.step T1 T2) (.wait t0) = .wait t0 := by
  intro m
  induction m with
  | nil => intro _; rfl
  | cons c m ih =>
    intro hm
    rw [List.foldl_cons, Blink.step, if_neg (hm c (by simp))]
    exact ih fun d hd => hm d (by simp [hd])

/-- The first element with a property. -/
private theorem first_such {α : Type} (P : α → Prop) : ∀ m : List α, (∃ z ∈ m, P z) →
    ∃ a z b, m = a ++ z :: b ∧ (∀ c ∈ a, ¬ P c) ∧ P z := by
  intro m
  induction m with
  | nil => rintro ⟨z, hz, _⟩; cases hz
  | cons c m ih =>
    rintro ⟨z, hz, hP⟩
    by_cases hc : P c
    · exact ⟨[], c, m, rfl, fun _ h => (by cases h), hc⟩
    · have hz' : z ∈ m := by
        rcases List.mem_cons.1 hz with rfl | hz
        · exact absurd hP hc
        · exact hz
      obtain ⟨a, y, b, rfl, ha, hy⟩ := ih ⟨z, hz', hP⟩
      refine ⟨c :: a, y, b, rfl, ?_, hy⟩
      intro d hd
      rcases List.mem_cons.1 hd with rfl | hd
      · exact hc
      · exact ha d hd

/-! ### C129 -/

/-- **C129**: the program never aborts; the lamp stays on for more than `T2`, whatever the scans do. -/
theorem C129_on_at_least (T1 T2 : Int) (h1 : 0 ≤ T1 ∧ T1 < 2 ^ 63) (h2 : 0 ≤ T2 ∧ T2 < 2 ^ 63) (h : List BlinkScan) (x : BlinkScan)
    (m : List BlinkScan) (y : BlinkScan) (hc : BlinkClock (h ++ x :: m ++ [y])) (h0 : lamp T1 T2 h = .ok false)
    (hx : lamp T1 T2 (h ++ [x]) = .ok true) :
    ∃ q, lamp T1 T2 (h ++ x :: m ++ [y]) = .ok q ∧ (q = false → (y.a1 : Int) - x.b1 > T2) := by
  have hch : BlinkClock h := clock_left (by simpa using hc)
  have hcx : BlinkClock (h ++ [x]) := clock_left (b := m ++ [y]) (by simpa using hc)
  rw [lamp_eq h1 h2 hch] at h0
  rw [lamp_eq h1 h2 hcx] at hx
  rw [lamp_eq h1 h2 hc]
  refine ⟨_, rfl, fun hq => ?_⟩
  have hon := turns_on (Res.ok.inj h0) (Res.ok.inj hx)
  have e : h ++ x :: m ++ [y] = (h ++ [x]) ++ (m ++ [y]) := by simp
  rw [e, phase_append, hon, List.foldl_append] at hq
  have hcm : BlinkClock (m ++ [y]) := by rw [e] at hc; exact clock_right hc
  by_cases hfire : ∃ z ∈ m, T2 < ((z.b2 - x.b1 : Nat) : Int)
  · obtain ⟨z, hz, hlt⟩ := hfire
    obtain ⟨a, b, rfl⟩ := List.append_of_mem hz
    have := (clock_cons (clock_right (a := a) (b := z :: (b ++ [y])) (by simpa using hcm))).2.1 y (by simp)
    omega
  · rw [stays_on m fun c hcm hlt => hfire ⟨c, hcm, hlt⟩] at hq
    simp only [List.foldl_cons, List.foldl_nil, Blink.step] at hq
    split at hq <;> cases hq

/-- **C129**: the lamp stays off for more than `T1`, whatever the scans do. -/
theorem C129_off_at_least (T1 T2 : Int) (h1 : 0 ≤ T1 ∧ T1 < 2 ^ 63) (h2 : 0 ≤ T2 ∧ T2 < 2 ^ 63) (h : List BlinkScan) (x : BlinkScan)
    (m : List BlinkScan) (y : BlinkScan) (hc : BlinkClock (h ++ x :: m ++ [y])) (h0 : lamp T1 T2 h = .ok true)
    (hx : lamp T1 T2 (h ++ [x]) = .ok false) (hy : lamp T1 T2 (h ++ x :: m ++ [y]) = .ok true) : (y.a2 : Int) - x.a2 > T1 := by
  have hch : BlinkClock h := clock_left (by simpa using hc)
  have hcx : BlinkClock (h ++ [x]) := clock_left (b := m ++ [y]) (by simpa using hc)
  rw [lamp_eq h1 h2 hch] at h0
  rw [lamp_eq h1 h2 hcx] at hx
  rw [lamp_eq h1 h2 hc] at hy
  have hoff := turns_off (Res.ok.inj h0) (Res.ok.inj hx)
  have e : h ++ x :: m ++ [y] = (h ++ [x]) ++ (m ++ [y]) := by simp
  have hcm : BlinkClock (x :: (m ++ [y])) := by
    have : h ++ x :: m ++ [y] = h ++ (x :: (m ++ [y])) := by simp
    rw [this] at hc; exact clock_right hc
  obtain ⟨⟨c1, c2, c3⟩, hlater, hcm⟩ := clock_cons hcm
  have hq := Res.ok.inj hy
  rw [e, phase_append, hoff] at hq
  cases m with
  | nil => cases hq
  | cons w m =>
    change Blink.lamp ((m ++ [y]).foldl (Blink.step T1 T2) (.wait w.a1)) = true at hq
    have hw := hlater w (by simp)
    by_cases hfire : ∃ z ∈ m ++ [y], T1 < ((z.a2 - w.a1 : Nat) : Int)
    · obtain ⟨z, hz, hlt⟩ := hfire
      have : z.a2 ≤ y.a2 := by
        rcases List.mem_append.1 hz with hz | hz
        · obtain ⟨a, b, rfl⟩ := List.append_of_mem hz
          have hk := clock_cons (clock_right (a := w :: a) (b := z :: (b ++ [y])) (by simpa using hcm))
          have h3 := hk.2.1 y (by simp)
          have h4 := (clock_cons (clock_right (a := b) (b := [y]) hk.2.2)).1
          omega
        · rw [List.mem_singleton.1 hz]
          exact Nat.le_refl _
      omega
    · rw [stays_wait _ fun c hcm hlt => hfire ⟨c, hcm, hlt⟩] at hq
      cases hq

private theorem period_right {D : Nat} {a b : List BlinkScan} (h : BlinkPeriod D (a ++ b)) : BlinkPeriod D b :=
  fun a' x y b' e => h (a ++ a') x y b' (by rw [e]; simp)

/-- The scan before the first element with a property. -/
private theorem last_of (x : BlinkScan) (a : List BlinkScan) : ∃ a' w, x :: a = a' ++ [w] ∧ (a = [] ∧ w = x ∨ w ∈ a) := by
  rcases List.eq_nil_or_concat a with rfl | ⟨a', w, rfl⟩
  · exact ⟨[], x, rfl, .inl ⟨rfl, rfl⟩⟩
  · exact ⟨x :: a', w, by simp, .inr (by simp)⟩

/-- **C129**: with scans of at most `D`, the lamp goes on for the first time more than `T1` and at most `T1 + D` after the first
scan. -/
theorem C129_first (T1 T2 : Int) (h1 : 0 ≤ T1 ∧ T1 < 2 ^ 63) (h2 : 0 ≤ T2 ∧ T2 < 2 ^ 63) (D : Nat) (x : BlinkScan)
    (m : List BlinkScan) (hc : BlinkClock (x :: m)) (hD : BlinkPeriod D (x :: m)) (hlong : ∃ v ∈ m, (v.a2 : Int) - x.a1 > T1) :
    ∃ a u b, m = a ++ u :: b ∧ (∀ q, q <+: a → lamp T1 T2 (x :: q) = .ok false) ∧ lamp T1 T2 (x :: a ++ [u]) = .ok true ∧
      T1 < (u.a2 : Int) - x.a1 ∧ (u.a2 : Int) - x.a1 ≤ T1 + D := by
  obtain ⟨v, hv, hlt⟩ := hlong
  obtain ⟨a, u, b, rfl, ha, hu⟩ := first_such (fun c : BlinkScan => T1 < ((c.a2 - x.a1 : Nat) : Int)) m ⟨v, hv, by omega⟩
  have hcu : BlinkClock (x :: a ++ [u]) := clock_left (b := b) (by simpa using hc)
  refine ⟨a, u, b, rfl, ?_, ?_, by omega, ?_⟩
  · rintro q ⟨r, rfl⟩
    rw [lamp_eq h1 h2 (clock_left (b := r ++ u :: b) (by simpa using hc))]
    change Res.ok (Blink.lamp (q.foldl (Blink.step T1 T2) (.wait x.a1))) = _
    rw [stays_wait q fun c hcq => ha c (by simp [hcq])]
    rfl
  · rw [lamp_eq h1 h2 hcu]
    change Res.ok (Blink.lamp ((a ++ [u]).foldl (Blink.step T1 T2) (.wait x.a1))) = _
    rw [List.foldl_append, stays_wait a ha, List.foldl_cons, Blink.step, if_pos hu]
    rfl
  · obtain ⟨a', w, e, hw⟩ := last_of x a
    have e2 : x :: (a ++ u :: b) = a' ++ w :: u :: b := by rw [← List.cons_append, e]; simp
    have hp := hD a' w u b e2
    have hcw := clock_cons (clock_right (a := a') (b := w :: u :: b) (by rw [← e2]; exact hc))
    have hcu := clock_cons hcw.2.2
    rcases hw with ⟨_, rfl⟩ | hw
    · omega
    · have := ha w hw
      omega

/-- **C129**: with scans of at most `D`, the lamp goes off again more than `T2` and at most `T2 + 2·D` after it went on, and is on
in all scans between. -/
theorem C129_on (T1 T2 : Int) (h1 : 0 ≤ T1 ∧ T1 < 2 ^ 63) (h2 : 0 ≤ T2 ∧ T2 < 2 ^ 63) (D : Nat) (h : List BlinkScan) (x : BlinkScan)
    (m : List BlinkScan) (hc : BlinkClock (h ++ x :: m)) (hD : BlinkPeriod D (x :: m)) (h0 : lamp T1 T2 h = .ok false)
    (hx : lamp T1 T2 (h ++ [x]) = .ok true) (hlong : ∃ v ∈ m, (v.a1 : Int) - x.b1 > T2 + D) :
    ∃ a y b, m = a ++ y :: b ∧ (∀ q, q <+: a → lamp T1 T2 (h ++ x :: q) = .ok true) ∧ lamp T1 T2 (h ++ x :: a ++ [y]) = .ok false ∧
      T2 < (y.a1 : Int) - x.b1 ∧ (y.a1 : Int) - x.b1 ≤ T2 + 2 * D := by
  obtain ⟨v, hv, hlt⟩ := hlong
  have hch : BlinkClock h := clock_left hc
  have hcx : BlinkClock (h ++ [x]) := clock_left (b := m) (by simpa using hc)
  rw [lamp_eq h1 h2 hch] at h0
  rw [lamp_eq h1 h2 hcx] at hx
  have hon := turns_on (Res.ok.inj h0) (Res.ok.inj hx)
  have hxm : BlinkClock (x :: m) := clock_right hc
  have hvv : v.a1 ≤ v.b2 := by
    obtain ⟨a, b, rfl⟩ := List.append_of_mem hv
    have := (clock_cons (clock_right (a := x :: a) (b := v :: b) (by simpa using hxm))).1
    omega
  obtain ⟨a, z, b, rfl, ha, hz⟩ := first_such (fun c : BlinkScan => T2 < ((c.b2 - x.b1 : Nat) : Int)) m ⟨v, hv, by omega⟩
  obtain ⟨a', w, e, hw⟩ := last_of x a
  have e2 : x :: (a ++ z :: b) = a' ++ w :: z :: b := by rw [← List.cons_append, e]; simp
  have hp := hD a' w z b e2
  have hcw := clock_cons (clock_right (a := a') (b := w :: z :: b) (by rw [← e2]; exact hxm))
  have hcz := clock_cons hcw.2.2
  have hzb : (z.b2 : Int) - x.b1 ≤ T2 + D := by
    rcases hw with ⟨_, rfl⟩ | hw
    · omega
    · have := ha w hw
      omega
  cases b with
  | nil =>
    exfalso
    rcases List.mem_append.1 hv with hv | hv
    · have := ha v hv; omega
    · rw [List.mem_singleton.1 hv] at hlt hvv
      omega
  | cons y b =>
    have hy := hD (x :: a) z y b rfl
    have hzy := hcz.2.1 y (by simp)
    have hcy := clock_cons hcz.2.2
    refine ⟨a ++ [z], y, b, by simp, ?_, ?_, by omega, by omega⟩
    · intro q hq
      have hphase : ∀ q : List BlinkScan, h ++ x :: q = (h ++ [x]) ++ q := by intro q; simp
      obtain ⟨r, hr⟩ := hq
      rw [lamp_eq h1 h2 (clock_left (b := r ++ y :: b) (by
        have : h ++ x :: (a ++ z :: y :: b) = h ++ x :: (a ++ [z]) ++ y :: b := by simp
        rw [this, ← hr] at hc
        simpa using hc)), hphase, phase_append, hon]
      rcases List.eq_nil_or_concat r with rfl | ⟨r', z', rfl⟩
      · rw [List.append_nil] at hr
        rw [hr, List.foldl_append, stays_on a ha, List.foldl_cons, Blink.step, if_pos hz]
        rfl
      · rw [List.concat_eq_append, ← List.append_assoc] at hr
        have hqa : q ++ r' = a := (List.append_inj' hr rfl).1
        rw [stays_on q fun c hcq => ha c (by rw [← hqa]; simp [hcq])]
        rfl
    · have e3 : h ++ x :: (a ++ [z]) ++ [y] = (h ++ [x]) ++ (a ++ [z] ++ [y]) := by simp
      rw [e3, lamp_eq h1 h2 (clock_left (b := b) (by simpa using hc)), phase_append, hon, List.foldl_append, List.foldl_append,
        stays_on a ha]
      simp only [List.foldl_cons, List.foldl_nil, Blink.step, if_pos hz]
      rfl

/-- **C129**: with scans of at most `D`, the lamp goes on again more than `T1` and at most `T1 + 2·D` after it went off, and is off in
all scans between. -/
theorem C129_off (T1 T2 : Int) (h1 : 0 ≤ T1 ∧ T1 < 2 ^ 63) (h2 : 0 ≤ T2 ∧ T2 < 2 ^ 63) (D : Nat) (h : List BlinkScan) (x : BlinkScan)
    (m : List BlinkScan) (hc : BlinkClock (h ++ x :: m)) (hD : BlinkPeriod D (x :: m)) (h0 : lamp T1 T2 h = .ok true)
    (hx : lamp T1 T2 (h ++ [x]) = .ok false) (hlong : ∃ v ∈ m, (v.a2 : Int) - x.a2 > T1 + D) :
    ∃ a y b, m = a ++ y :: b ∧ (∀ q, q <+: a → lamp T1 T2 (h ++ x :: q) = .ok false) ∧ lamp T1 T2 (h ++ x :: a ++ [y]) = .ok true ∧
      T1 < (y.a2 : Int) - x.a2 ∧ (y.a2 : Int) - x.a2 ≤ T1 + 2 * D := by
  obtain ⟨v, hv, hlt⟩ := hlong
  have hch : BlinkClock h := clock_left hc
  have hcx : BlinkClock (h ++ [x]) := clock_left (b := m) (by simpa using hc)
  rw [lamp_eq h1 h2 hch] at h0
  rw [lamp_eq h1 h2 hcx] at hx
  have hoff := turns_off (Res.ok.inj h0) (Res.ok.inj hx)
  have hxm : BlinkClock (x :: m) := clock_right hc
  cases m with
  | nil => cases hv
  | cons w m =>
    have hpw := hD [] x w m rfl
    have hcx := clock_cons hxm
    have hcw := clock_cons hcx.2.2
    have hxw := hcx.2.1 w (by simp)
    have hvm : v ∈ m := by
      rcases List.mem_cons.1 hv with rfl | hv
      · omega
      · exact hv
    obtain ⟨a, u, b, rfl, ha, hu⟩ := first_such (fun c : BlinkScan => T1 < ((c.a2 - w.a1 : Nat) : Int)) m ⟨v, hvm, by omega⟩
    obtain ⟨a', w', e, hw⟩ := last_of w a
    have e2 : x :: w :: (a ++ u :: b) = (x :: a') ++ w' :: u :: b := by rw [← List.cons_append, e]; simp
    have hp := hD (x :: a') w' u b e2
    have hcw' := clock_cons (clock_right (a := x :: a') (b := w' :: u :: b) (by rw [← e2]; exact hxm))
    have hcu := clock_cons hcw'.2.2
    have hub : (u.a2 : Int) - w.a1 ≤ T1 + D := by
      rcases hw with ⟨_, rfl⟩ | hw
      · omega
      · have := ha w' hw
        omega
    refine ⟨w :: a, u, b, rfl, ?_, ?_, by omega, by omega⟩
    · rintro q ⟨r, hr⟩
      have hphase : h ++ x :: q = (h ++ [x]) ++ q := by simp
      rw [lamp_eq h1 h2 (clock_left (b := r ++ u :: b) (by
        have : h ++ x :: w :: (a ++ u :: b) = h ++ x :: (w :: a) ++ u :: b := by simp
        rw [this, ← hr] at hc
        simpa using hc)), hphase, phase_append, hoff]
      cases q with
      | nil => rfl
      | cons w'' q =>
        rw [List.cons_append] at hr
        obtain ⟨rfl, hqa⟩ := List.cons.inj hr
        change Res.ok (Blink.lamp (q.foldl (Blink.step T1 T2) (.wait w''.a1))) = _
        rw [stays_wait q fun c hcq => ha c (by rw [← hqa]; simp [hcq])]
        rfl
    · have e3 : h ++ x :: (w :: a) ++ [u] = (h ++ [x]) ++ (w :: (a ++ [u])) := by simp
      rw [e3, lamp_eq h1 h2 (clock_left (b := b) (by simpa using hc)), phase_append, hoff]
      change Res.ok (Blink.lamp ((a ++ [u]).foldl (Blink.step T1 T2) (.wait w.a1))) = _
      rw [List.foldl_append, stays_wait a ha, List.foldl_cons, Blink.step, if_pos hu]
      rfl

/-- Scans every 10 time units with `T1 = 20` and `T2 = 5`: three scans off, then on for two scans, then off again. -/
private def every10 (n : Nat) : List BlinkScan := (List.range n).map fun i => ⟨10 * i, 10 * i + 1, 10 * i + 2, 10 * i + 3⟩

private theorem every10_period (n : Nat) : BlinkPeriod 13 (every10 n) := by
  intro a x y b e
  have hx : (every10 n)[a.length]? = some x := by rw [e]; simp
  have hy : (every10 n)[a.length + 1]? = some y := by rw [e, List.getElem?_append_right (by omega)]; simp
  simp only [every10, List.getElem?_map, Option.map_eq_some_iff, List.getElem?_eq_some_iff, List.getElem_range, List.length_range] at hx hy
  obtain ⟨_, ⟨_, rfl⟩, rfl⟩ := hx
  obtain ⟨_, ⟨_, rfl⟩, rfl⟩ := hy
  change 10 * (a.length + 1) + 3 ≤ 10 * a.length + 13
  omega

example : BlinkClock (every10 12) ∧ BlinkPeriod 13 (every10 12) ∧
    (List.range 12).map (fun n => lamp 20 5 (every10 (n + 1))) =
      [.ok false, .ok false, .ok true, .ok true, .ok false, .ok false, .ok false, .ok true, .ok true, .ok false, .ok false, .ok false] := by
  refine ⟨?_, every10_period 12, by decide⟩
  unfold BlinkClock
  decide

end Verif
