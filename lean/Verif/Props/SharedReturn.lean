import Verif.Props.SharedInstance
/-
C151: a call that another task interrupts with calls of the same instance returns, and a counter stays within its limits.

Model/SharedInstance.lean takes a call apart into its loads and stores.
-/
namespace Verif
open Spec

/-! ### Specification -/

/-- Interrupted calls return: if a call and some calls of another task return when the other calls come before it and when they come behind it, it returns when
they come at any place in the middle of it. -/
def ReturnsWhenShared {S I : Type} (call : S → I → Res S) (steps : I → Steps S) (fresh : S) : Prop :=
  ∀ h s a bs k, runFB call fresh h = .ok s → (∃ x, runFB call s (bs ++ [a]) = .ok x) → (∃ x, runFB call s (a :: bs) = .ok x) →
    ∃ m, (steps a).interrupted k (runFB call · bs) s = .ok m

/-- A call with inputs `a` returns whatever other tasks do in the meantime: before each of its loads and stores they make any number of calls with inputs of which `C` is true. -/
def ReturnsAmong {S I : Type} (call : S → I → Res S) (steps : I → Steps S) (C : I → Prop) (s : S) (a : I) : Prop :=
  ∀ calls : List (List I), (∀ l ∈ calls, ∀ b ∈ l, C b) → ∃ m, (steps a).runWith call calls s = .ok m

/-! ### Rules -/

/-- What is left of a call returns from every memory of which `Inv` is true, whatever the other tasks do with inputs of which `C` is true. -/
private def Safe {S I : Type} (call : S → I → Res S) (C : I → Prop) (Inv : S → Prop) (rest : Steps S) : Prop :=
  ∀ m, Inv m → ∀ calls : List (List I), (∀ l ∈ calls, ∀ b ∈ l, C b) → ∃ r, rest.runWith call calls m = .ok r

private def Kept {S I : Type} (call : S → I → Res S) (C : I → Prop) (Inv : S → Prop) : Prop :=
  ∀ m b, Inv m → C b → ∃ m', call m b = .ok m' ∧ Inv m'

private theorem kept_run {S I : Type} {call : S → I → Res S} {C : I → Prop} {Inv : S → Prop} (hk : Kept call C Inv) :
    ∀ (l : List I) m, Inv m → (∀ b ∈ l, C b) → ∃ m', runFB call m l = .ok m' ∧ Inv m'
  | [], m, hm, _ => ⟨m, rfl, hm⟩
  | b :: l, m, hm, hl => by
    obtain ⟨m1, h1, hm1⟩ := hk m b hm (hl b (by simp))
    obtain ⟨m2, h2, hm2⟩ := kept_run hk l m1 hm1 fun x hx => hl x (by simp [hx])
    exact ⟨m2, by rw [runFB_cons, h1]; exact h2, hm2⟩

private theorem head_ok {I : Type} {C : I → Prop} {calls : List (List I)} (h : ∀ l ∈ calls, ∀ b ∈ l, C b) : ∀ b ∈ calls.head?.getD [], C b := by
  cases calls with
  | nil => simp
  | cons l _ => exact h l (by simp)

private theorem tail_ok {I : Type} {C : I → Prop} {calls : List (List I)} (h : ∀ l ∈ calls, ∀ b ∈ l, C b) : ∀ l ∈ calls.tail, ∀ b ∈ l, C b :=
  fun l hl => h l (List.mem_of_mem_tail hl)

private theorem safe_done {S I : Type} {call : S → I → Res S} {C : I → Prop} {Inv : S → Prop} : Safe call C Inv .done :=
  fun m _ _ _ => ⟨m, rfl⟩

private theorem safe_load {S I : Type} {call : S → I → Res S} {C : I → Prop} {Inv : S → Prop} {next : S → Steps S} (hk : Kept call C Inv)
    (h : ∀ m, Inv m → ∃ Inv' : S → Prop, Inv' m ∧ Safe call C Inv' (next m)) : Safe call C Inv (.load next) := by
  intro m hm calls hc
  obtain ⟨m1, h1, hm1⟩ := kept_run hk _ m hm (head_ok hc)
  obtain ⟨Inv', h2, h3⟩ := h m1 hm1
  obtain ⟨r, hr⟩ := h3 m1 h2 calls.tail (tail_ok hc)
  exact ⟨r, by rw [Steps.runWith, h1]; exact hr⟩

private theorem safe_store {S I : Type} {call : S → I → Res S} {C : I → Prop} {Inv Inv' : S → Prop} {f : S → S} {next : Steps S} (hk : Kept call C Inv)
    (hf : ∀ m, Inv m → Inv' (f m)) (h : Safe call C Inv' next) : Safe call C Inv (.store f next) := by
  intro m hm calls hc
  obtain ⟨m1, h1, hm1⟩ := kept_run hk _ m hm (head_ok hc)
  obtain ⟨r, hr⟩ := h (f m1) (hf m1 hm1) calls.tail (tail_ok hc)
  exact ⟨r, by rw [Steps.runWith, h1]; exact hr⟩

private theorem safe_any {S I : Type} {call : S → I → Res S} {C : I → Prop} {Inv : S → Prop} {rest : Steps S} (h : Safe call C (fun _ => True) rest) : Safe call C Inv rest :=
  fun m _ => h m trivial

/-- What is left of a call returns with a memory of which `Q` is true if another task interrupts it once. -/
private def Good {S : Type} (Q : S → Prop) (other : S → Res S) (rest : Steps S) (m : S) : Prop :=
  ∀ k, ∃ mB mA, rest.interrupted k other m = .ok (mB, mA) ∧ Q mA

private theorem good_done {S : Type} {Q : S → Prop} {other : S → Res S} {m m' : S} (h : other m = .ok m') (hQ : Q m') : Good Q other .done m := by
  rintro (_ | k)
  · exact ⟨m', m', by simp [Steps.interrupted, Steps.run, h], hQ⟩
  · exact ⟨m', m', by simp [Steps.interrupted, h], hQ⟩

private theorem good_load {S : Type} {Q : S → Prop} {other : S → Res S} {next : S → Steps S} {m m' : S} (h : other m = .ok m')
    (hr : ∃ r, (Steps.load next).run m' = .ok r ∧ Q r) (hn : Good Q other (next m) m) : Good Q other (.load next) m := by
  rintro (_ | k)
  · obtain ⟨r, h1, h2⟩ := hr
    exact ⟨m', r, by simp [Steps.interrupted, h, h1], h2⟩
  · exact hn k

private theorem good_store {S : Type} {Q : S → Prop} {other : S → Res S} {f : S → S} {next : Steps S} {m m' : S} (h : other m = .ok m')
    (hr : ∃ r, (Steps.store f next).run m' = .ok r ∧ Q r) (hn : Good Q other next (f m)) : Good Q other (.store f next) m := by
  rintro (_ | k)
  · obtain ⟨r, h1, h2⟩ := hr
    exact ⟨m', r, by simp [Steps.interrupted, h, h1], h2⟩
  · exact hn k

/-! ### Edge detection and latches -/

private theorem total {S I : Type} {call : S → I → Res S} (h : ∀ m b, ∃ m', call m b = .ok m') (bs : List I) : ∀ m, ∃ m', runFB call m bs = .ok m' := by
  induction bs with
  | nil => exact fun m => ⟨m, rfl⟩
  | cons b bs ih =>
    intro m
    obtain ⟨m1, h1⟩ := h m b
    obtain ⟨m2, h2⟩ := ih m1
    exact ⟨m2, by rw [runFB_cons, h1]; exact h2⟩

private inductive NoPanic {S : Type} : Steps S → Prop
  | done : NoPanic .done
  | load {next} : (∀ m, NoPanic (next m)) → NoPanic (.load next)
  | store {f next} : NoPanic next → NoPanic (.store f next)

private theorem NoPanic.run {S : Type} {rest : Steps S} (h : NoPanic rest) : ∀ m, ∃ r, rest.run m = .ok r := by
  induction h with
  | done => exact fun m => ⟨m, rfl⟩
  | load _ ih => exact fun m => ih m m
  | store _ ih => exact fun m => ih _

private theorem NoPanic.interrupted {S : Type} {rest : Steps S} (h : NoPanic rest) {other : S → Res S} (ho : ∀ m, ∃ m', other m = .ok m') :
    ∀ k m, ∃ r, rest.interrupted k other m = .ok r := by
  have h0 : ∀ {rest : Steps S}, NoPanic rest → ∀ m, ∃ r, rest.interrupted 0 other m = .ok r := by
    intro rest hr m
    obtain ⟨m', h1⟩ := ho m
    obtain ⟨r, h2⟩ := hr.run m'
    exact ⟨(m', r), by simp [Steps.interrupted, h1, h2]⟩
  induction h with
  | done =>
    rintro (_ | k) m
    · exact h0 .done m
    · obtain ⟨m', h1⟩ := ho m
      exact ⟨(m', m'), by simp [Steps.interrupted, h1]⟩
  | load h ih =>
    rintro (_ | k) m
    · exact h0 (.load h) m
    · exact ih m k m
  | store h ih =>
    rintro (_ | k) m
    · exact h0 (.store h) m
    · exact ih k _

private theorem NoPanic.runWith {S I : Type} {rest : Steps S} (h : NoPanic rest) {call : S → I → Res S} (ho : ∀ m b, ∃ m', call m b = .ok m') :
    ∀ calls m, ∃ r, rest.runWith call calls m = .ok r := by
  induction h with
  | done => exact fun _ m => ⟨m, rfl⟩
  | load _ ih =>
    intro calls m
    obtain ⟨m', h1⟩ := total ho (calls.head?.getD []) m
    obtain ⟨r, h2⟩ := ih m' calls.tail m'
    exact ⟨r, by rw [Steps.runWith, h1]; exact h2⟩
  | store _ ih =>
    intro calls m
    obtain ⟨m', h1⟩ := total ho (calls.head?.getD []) m
    obtain ⟨r, h2⟩ := ih calls.tail _
    exact ⟨r, by rw [Steps.runWith, h1]; exact h2⟩

private theorem no_panic :
    (∀ a, NoPanic (R_TRIG.steps a)) ∧ (∀ a, NoPanic (F_TRIG.steps a)) ∧ (∀ a, NoPanic (SR.steps a)) ∧ (∀ a, NoPanic (RS.steps a)) := by
  refine ⟨fun a => .store (.load fun m => ?_), fun a => .store (.load fun m => ?_), fun a => .store (.store (.load fun _ => .load fun _ => .load fun _ => .store .done)),
    fun a => .store (.store (.load fun _ => .load fun _ => .load fun _ => .store .done))⟩
  · unfold Steps.rising_edge
    split
    · exact .load fun _ => .store (.store .done)
    · exact .store (.store .done)
  · unfold Steps.falling_edge
    split
    · exact .store (.store .done)
    · exact .load fun _ => .store (.store .done)

/-- **C151** for R_TRIG, F_TRIG, SR and RS. -/
theorem C151_flanks_latches :
    ReturnsWhenShared R_TRIG.call R_TRIG.steps Trigger.default ∧
    ReturnsWhenShared F_TRIG.call F_TRIG.steps Trigger.default ∧
    ReturnsWhenShared SR.call SR.steps SetResetParams.default ∧
    ReturnsWhenShared RS.call RS.steps SetResetParams.default := by
  obtain ⟨n1, n2, n3, n4⟩ := no_panic
  exact ⟨fun _ s a bs k _ _ _ => (n1 a).interrupted (total (fun _ _ => ⟨_, rfl⟩) bs) k s, fun _ s a bs k _ _ _ => (n2 a).interrupted (total (fun _ _ => ⟨_, rfl⟩) bs) k s,
    fun _ s a bs k _ _ _ => (n3 a).interrupted (total (fun _ _ => ⟨_, rfl⟩) bs) k s, fun _ s a bs k _ _ _ => (n4 a).interrupted (total (fun _ _ => ⟨_, rfl⟩) bs) k s⟩

/-- R_TRIG, F_TRIG, SR and RS also return if they are interrupted again and again. -/
theorem C151_flanks_latches_always :
    (∀ s a, ReturnsAmong R_TRIG.call R_TRIG.steps (fun _ => True) s a) ∧
    (∀ s a, ReturnsAmong F_TRIG.call F_TRIG.steps (fun _ => True) s a) ∧
    (∀ s a, ReturnsAmong SR.call SR.steps (fun _ => True) s a) ∧
    (∀ s a, ReturnsAmong RS.call RS.steps (fun _ => True) s a) := by
  obtain ⟨n1, n2, n3, n4⟩ := no_panic
  exact ⟨fun s a calls _ => (n1 a).runWith (fun _ _ => ⟨_, rfl⟩) calls s, fun s a calls _ => (n2 a).runWith (fun _ _ => ⟨_, rfl⟩) calls s,
    fun s a calls _ => (n3 a).runWith (fun _ _ => ⟨_, rfl⟩) calls s, fun s a calls _ => (n4 a).runWith (fun _ _ => ⟨_, rfl⟩) calls s⟩

/-- A call of SR that is interrupted before each of its six loads and stores. -/
example : (SR.steps ⟨true, false⟩).runWith SR.call [[⟨false, true⟩], [⟨true, true⟩, ⟨false, true⟩], [], [⟨false, false⟩], [⟨false, true⟩], [⟨true, false⟩]] SetResetParams.default =
    .ok ⟨true, false, false⟩ := by decide

/-! ### Where it is false -/

private theorem not_returns {S I : Type} {call : S → I → Res S} {steps : I → Steps S} {fresh s : S} (h : List I) (a : I) (bs : List I) (k : Nat)
    (hs : runFB call fresh h = .ok s) (h1 : ∃ x, runFB call s (bs ++ [a]) = .ok x) (h2 : ∃ x, runFB call s (a :: bs) = .ok x)
    (hp : (steps a).interrupted k (runFB call · bs) s = .panic) : ¬ ReturnsWhenShared call steps fresh := by
  intro hall
  obtain ⟨m, hm⟩ := hall h s a bs k hs h1 h2
  rw [hp] at hm
  cases hm

/-- CTU reaches every value by counting. -/
theorem ctu_reaches (t : IntTy) (p : Profile) (hlo : t.lo ≤ 0) : ∀ n : Nat, (n : Int) ≤ t.hi →
    ∃ h, runFB (ctuCall t p) CTUParams.default h = .ok ⟨false, false, 0, true, n, ⟨false⟩⟩
  | 0, _ => ⟨[⟨false, false, 0⟩], rfl⟩
  | n + 1, hn => by
    obtain ⟨h, hh⟩ := ctu_reaches t p hlo n (by omega)
    have hlt : (n : Int) < t.hi := by omega
    have h1 : t.arith p ((n : Int) + 1) = .ok (n + 1) := by
      unfold IntTy.arith
      rw [if_pos ⟨by omega, by omega⟩]
    refine ⟨h ++ [⟨true, false, 0⟩, ⟨false, false, 0⟩], ?_⟩
    rw [runFB_append, hh]
    have h0 : (0 : Int) ≤ (n : Int) + 1 := by omega
    simp [ctuCall, ctu, CTUParams.r_edge, Signal.rising_edge, CTUParams.inc, CTUParams.update_q, hlt, h1, h0]

/-- **C151** is false.

* CTU, CTD, CTUD panic (in the debug profile; for the release profile see C151_release_refuted): between the comparison with the limit and the addition, the other task
  brings the value to the limit.
* TP panics with "unreachable": between its look at the start time and the detection of the edge, the other task starts the timer.
* TON, TOF panic with "Timer should be running": the other task stops the timer in the middle of `update_elapsed_time`. -/
theorem C151_refuted :
    (∀ t, CounterTy t → ¬ ReturnsWhenShared (ctuCall t .debug) (ctuSteps t .debug) CTUParams.default) ∧
    (∀ t, CounterTy t → ¬ ReturnsWhenShared (ctdCall t .debug) (ctdSteps t .debug) CTDParams.default) ∧
    (∀ t, CounterTy t → ¬ ReturnsWhenShared (ctudCall t .debug) (ctudSteps t .debug) CTUDParams.default) ∧
    ¬ ReturnsWhenShared TP.call TP.steps TimerParams.default ∧
    ¬ ReturnsWhenShared TON.call TON.steps TimerParams.default ∧
    ¬ ReturnsWhenShared TOF.call TOF.steps TimerParams.default := by
  refine ⟨?_, ?_, ?_, ?_, ?_, ?_⟩
  · intro t ht
    obtain ⟨h, hh⟩ := ctu_reaches t .debug (by rcases ht with rfl | rfl | rfl | rfl | rfl <;> decide) (t.hi - 1).toNat
      (by rcases ht with rfl | rfl | rfl | rfl | rfl <;> decide)
    refine not_returns h ⟨true, false, 0⟩ [⟨false, false, 0⟩, ⟨true, false, 0⟩] 8 hh ?_ ?_ ?_
    · rcases ht with rfl | rfl | rfl | rfl | rfl <;> exact ⟨_, rfl⟩
    · rcases ht with rfl | rfl | rfl | rfl | rfl <;> exact ⟨_, rfl⟩
    · rcases ht with rfl | rfl | rfl | rfl | rfl <;> decide
  · intro t ht
    refine not_returns (s := ⟨false, true, t.lo + 1, decide (t.lo + 1 ≤ 0), t.lo + 1, ⟨false⟩⟩) [⟨false, true, t.lo + 1⟩] ⟨true, false, 0⟩ [⟨false, true, t.lo⟩] 8 rfl ?_ ?_ ?_
    · rcases ht with rfl | rfl | rfl | rfl | rfl <;> exact ⟨_, rfl⟩
    · rcases ht with rfl | rfl | rfl | rfl | rfl <;> exact ⟨_, rfl⟩
    · rcases ht with rfl | rfl | rfl | rfl | rfl <;> decide
  · intro t ht
    refine not_returns (s := ⟨false, false, false, true, t.hi - 1, true, decide (t.hi - 1 ≤ 0), t.hi - 1, ⟨false⟩, ⟨false⟩⟩) [⟨false, false, false, true, t.hi - 1⟩]
      ⟨true, false, false, false, 0⟩ [⟨false, false, false, true, t.hi⟩] 13 ?_ ?_ ?_ ?_
    · rcases ht with rfl | rfl | rfl | rfl | rfl <;> decide
    · rcases ht with rfl | rfl | rfl | rfl | rfl <;> exact ⟨_, rfl⟩
    · rcases ht with rfl | rfl | rfl | rfl | rfl <;> exact ⟨_, rfl⟩
    · rcases ht with rfl | rfl | rfl | rfl | rfl <;> decide
  · exact not_returns [] ⟨true, 100, 0, 0⟩ [⟨true, 100, 0, 0⟩] 3 rfl ⟨_, rfl⟩ ⟨_, rfl⟩ rfl
  · exact not_returns [⟨true, 100, 0, 0⟩] ⟨true, 100, 10, 10⟩ [⟨false, 100, 10, 10⟩] 5 rfl ⟨_, rfl⟩ ⟨_, rfl⟩ rfl
  · exact not_returns [⟨true, 100, 0, 0⟩, ⟨false, 100, 10, 10⟩] ⟨false, 100, 20, 20⟩ [⟨true, 100, 20, 20⟩] 8 rfl ⟨_, rfl⟩ ⟨_, rfl⟩ rfl

/-- The value of a counter can jump: a call and some calls of another task leave the value `v` when the other calls come before it and when they come behind it, and `w`
when they come in the middle of it. -/
def JumpsWhenShared {S I : Type} (call : S → I → Res S) (steps : I → Steps S) (fresh : S) (cv : S → Int) (v w : Int) : Prop :=
  ∃ h s a bs k x y mB mA, runFB call fresh h = .ok s ∧ runFB call s (bs ++ [a]) = .ok x ∧ runFB call s (a :: bs) = .ok y ∧
    (steps a).interrupted k (runFB call · bs) s = .ok (mB, mA) ∧ cv x = v ∧ cv y = v ∧ cv mA = w

/-- In the release profile the counters do not panic. Instead the value jumps from the upper limit to the lower (CTU, CTUD) or from the lower to the upper (CTD). -/
theorem C151_release_refuted (t : IntTy) (ht : CounterTy t) :
    JumpsWhenShared (ctuCall t .release) (ctuSteps t .release) CTUParams.default (·.cv) t.hi t.lo ∧
    JumpsWhenShared (ctdCall t .release) (ctdSteps t .release) CTDParams.default (·.cv) t.lo t.hi ∧
    JumpsWhenShared (ctudCall t .release) (ctudSteps t .release) CTUDParams.default (·.cv) t.hi t.lo := by
  refine ⟨?_, ?_, ?_⟩
  · obtain ⟨h, hh⟩ := ctu_reaches t .release (by rcases ht with rfl | rfl | rfl | rfl | rfl <;> decide) (t.hi - 1).toNat
      (by rcases ht with rfl | rfl | rfl | rfl | rfl <;> decide)
    refine ⟨h, _, ⟨true, false, 0⟩, [⟨false, false, 0⟩, ⟨true, false, 0⟩], 8, ⟨true, false, 0, true, t.hi, ⟨true⟩⟩, ⟨true, false, 0, true, t.hi, ⟨true⟩⟩,
      ⟨true, false, 0, true, t.hi, ⟨true⟩⟩, ⟨true, false, 0, decide (t.lo ≥ 0), t.lo, ⟨true⟩⟩, hh, ?_, ?_, ?_, rfl, rfl, rfl⟩ <;>
      rcases ht with rfl | rfl | rfl | rfl | rfl <;> decide
  · refine ⟨[⟨false, true, t.lo + 1⟩], ⟨false, true, t.lo + 1, decide (t.lo + 1 ≤ 0), t.lo + 1, ⟨false⟩⟩, ⟨true, false, 0⟩, [⟨false, true, t.lo⟩], 8,
      ⟨true, false, 0, true, t.lo, ⟨true⟩⟩, ⟨false, true, t.lo, true, t.lo, ⟨true⟩⟩, ⟨false, true, t.lo, true, t.lo, ⟨true⟩⟩, ⟨false, true, t.lo, false, t.hi, ⟨true⟩⟩,
      ?_, ?_, ?_, ?_, rfl, rfl, rfl⟩ <;>
      rcases ht with rfl | rfl | rfl | rfl | rfl <;> decide
  · refine ⟨[⟨false, false, false, true, t.hi - 1⟩], ⟨false, false, false, true, t.hi - 1, true, decide (t.hi - 1 ≤ 0), t.hi - 1, ⟨false⟩, ⟨false⟩⟩,
      ⟨true, false, false, false, 0⟩, [⟨false, false, false, true, t.hi⟩], 13,
      ⟨true, false, false, false, 0, true, false, t.hi, ⟨true⟩, ⟨false⟩⟩, ⟨false, false, false, true, t.hi, true, false, t.hi, ⟨true⟩, ⟨false⟩⟩,
      ⟨false, false, false, true, t.hi, true, false, t.hi, ⟨true⟩, ⟨false⟩⟩, ⟨false, false, false, true, t.hi, false, true, t.lo, ⟨true⟩, ⟨false⟩⟩, ?_, ?_, ?_, ?_, rfl, rfl, rfl⟩ <;>
      rcases ht with rfl | rfl | rfl | rfl | rfl <;> decide

/-! ### Counters that are interrupted by one call -/

private theorem arith_ok {t : IntTy} (p : Profile) {x : Int} (h : t.InRange x) : t.arith p x = .ok x := by
  unfold IntTy.arith
  rw [if_pos h]

/-- What a call of CTU does to the value. -/
private theorem ctu_value (t : IntTy) (p : Profile) (h0 : t.InRange 0) (m : CTUParams) (hm : t.InRange m.cv) (b : CTUIn) :
    ∃ m', ctuCall t p m b = .ok m' ∧ t.InRange m'.cv ∧ m'.r = b.r ∧ (b.r = false → m.cv ≤ m'.cv ∧ m'.cv ≤ m.cv + 1) ∧
      (m.internal.current_value = true → m'.cv = m.cv ∨ m'.cv = 0 ∧ b.r = true) := by
  obtain ⟨_, _, _, _, cv, ⟨e⟩⟩ := m
  obtain ⟨cu, r, pv⟩ := b
  simp only at hm
  cases r
  · by_cases h : cu = true ∧ e = false
    · obtain ⟨rfl, rfl⟩ := h
      by_cases hlt : cv < t.hi
      · have ha := arith_ok p (t := t) (x := cv + 1) ⟨by have := hm.1; omega, by omega⟩
        refine ⟨⟨true, false, pv, decide (cv + 1 ≥ pv), cv + 1, ⟨true⟩⟩, ?_, ⟨by have := hm.1; simp only; omega, by simp only; omega⟩, rfl, fun _ => by simp only; omega, by simp⟩
        simp [ctuCall, ctu, CTUParams.r_edge, Signal.rising_edge, CTUParams.inc, CTUParams.update_q, hlt, ha]
      · refine ⟨⟨true, false, pv, decide (cv ≥ pv), cv, ⟨true⟩⟩, ?_, hm, rfl, fun _ => by simp only; omega, by simp⟩
        simp [ctuCall, ctu, CTUParams.r_edge, Signal.rising_edge, CTUParams.update_q, hlt]
    · refine ⟨⟨cu, false, pv, decide (cv ≥ pv), cv, ⟨cu⟩⟩, ?_, hm, rfl, fun _ => by simp only; omega, by simp⟩
      cases cu <;> cases e <;> first | rfl | exact absurd ⟨rfl, rfl⟩ h
  · exact ⟨⟨cu, true, pv, decide (0 ≥ pv), 0, ⟨e⟩⟩, rfl, h0, rfl, by simp, by simp⟩

private def ctuCompare (t : IntTy) (p : Profile) (e : Bool) : Steps CTUParams :=
  .load fun m => if e && decide (m.cv < t.hi) then
    .load fun m => match t.arith p (m.cv + 1) with
    | .ok v => .store ({ · with cv := v }) ctuStepsEnd
    | _ => .panic
  else ctuStepsEnd

private def ctuEdge (t : IntTy) (p : Profile) : Steps CTUParams :=
  .load fun m => Steps.rising_edge (·.internal) ({ · with internal := · }) m.cu (ctuCompare t p)

private def ctuBody (t : IntTy) (p : Profile) : Steps CTUParams :=
  .load fun m => if m.r then .store ({ · with cv := 0 }) ctuStepsEnd else ctuEdge t p

private theorem ctuCompare_run (t : IntTy) (p : Profile) (e : Bool) (m : CTUParams) (hm : t.InRange m.cv) :
    ∃ r, (ctuCompare t p e).run m = .ok r ∧ t.InRange r.cv ∧ m.cv ≤ r.cv ∧ r.cv ≤ m.cv + 1 := by
  cases e
  · exact ⟨_, rfl, hm, Int.le_refl _, by simp only; omega⟩
  · by_cases hlt : m.cv < t.hi
    · have hr : t.InRange (m.cv + 1) := ⟨by have := hm.1; omega, by omega⟩
      refine ⟨{ m with cv := m.cv + 1, q := decide (m.cv + 1 ≥ m.pv) }, ?_, hr, by simp only; omega, by simp only; omega⟩
      simp [ctuCompare, Steps.run, hlt, arith_ok p hr, ctuStepsEnd]
    · refine ⟨m.update_q, ?_, hm, Int.le_refl _, by simp only [CTUParams.update_q]; omega⟩
      simp [ctuCompare, Steps.run, hlt, ctuStepsEnd, CTUParams.update_q]

private theorem ctuEdge_run (t : IntTy) (p : Profile) (m : CTUParams) (hm : t.InRange m.cv) :
    ∃ r, (ctuEdge t p).run m = .ok r ∧ t.InRange r.cv ∧ m.cv ≤ r.cv ∧ r.cv ≤ m.cv + 1 := by
  simp only [ctuEdge, Steps.run, Steps.rising_edge]
  split
  · exact ctuCompare_run t p _ { m with internal := _ } hm
  · exact ctuCompare_run t p _ { m with internal := _ } hm

private theorem ctuBody_run (t : IntTy) (p : Profile) (h0 : t.InRange 0) (m : CTUParams) (hm : t.InRange m.cv) :
    ∃ r, (ctuBody t p).run m = .ok r ∧ t.InRange r.cv ∧ (m.r = false → m.cv ≤ r.cv ∧ r.cv ≤ m.cv + 1) := by
  simp only [ctuBody, Steps.run]
  split
  · next h => exact ⟨_, rfl, h0, by simp [h]⟩
  · obtain ⟨r, h1, h2, h3⟩ := ctuEdge_run t p m hm
    exact ⟨r, h1, h2, fun _ => h3⟩

/-- CTU, interrupted by one call with any inputs: it returns, the value stays in its range, and without R it goes up by 0, 1 or 2. -/
theorem C151_ctu_partial (t : IntTy) (p : Profile) (ht : CounterTy t) (s : CTUParams) (hs : t.InRange s.cv) (a b : CTUIn) (k : Nat) :
    ∃ mB mA, (ctuSteps t p a).interrupted k (ctuCall t p · b) s = .ok (mB, mA) ∧ t.InRange mA.cv ∧
      (a.r = false → b.r = false → s.cv ≤ mA.cv ∧ mA.cv ≤ s.cv + 2) := by
  have hz : t.lo ≤ 0 ∧ 0 < t.hi := by rcases ht with rfl | rfl | rfl | rfl | rfl <;> decide
  have h0 : t.InRange 0 := ⟨hz.1, by omega⟩
  let Q : CTUParams → Prop := fun m => t.InRange m.cv ∧ (a.r = false → b.r = false → s.cv ≤ m.cv ∧ m.cv ≤ s.cv + 2)
  have hend : ∀ m : CTUParams, t.InRange m.cv → (a.r = false → b.r = false → s.cv ≤ m.cv ∧ m.cv ≤ s.cv + 1) → Good Q (ctuCall t p · b) ctuStepsEnd m := by
    intro m h1 h2
    obtain ⟨m', c1, c2, _, c3, _⟩ := ctu_value t p h0 m h1 b
    have hQ : Q m' := ⟨c2, fun ha hb => by have := h2 ha hb; have := c3 hb; omega⟩
    refine good_load c1 ⟨_, rfl, hQ⟩ (good_load c1 ⟨_, rfl, hQ⟩ (good_store c1 ⟨_, rfl, hQ⟩ ?_))
    obtain ⟨m', c1, c2, _, c3, _⟩ := ctu_value t p h0 { m with q := decide (m.cv ≥ m.pv) } h1 b
    exact good_done c1 ⟨c2, fun ha hb => by have := h2 ha hb; have := c3 hb; simp only at this; omega⟩
  have hcmp : ∀ (e : Bool) (m : CTUParams), m.cv = s.cv → (e = true → m.internal.current_value = true) → Good Q (ctuCall t p · b) (ctuCompare t p e) m := by
    intro e m hc he
    have h1 : t.InRange m.cv := hc ▸ hs
    obtain ⟨m', c1, c2, _, c3, c4⟩ := ctu_value t p h0 m h1 b
    obtain ⟨r, r1, r2, r3⟩ := ctuCompare_run t p e m' c2
    refine good_load c1 ⟨r, r1, r2, fun _ hb => by have := c3 hb; omega⟩ ?_
    by_cases hgo : e && decide (m.cv < t.hi)
    · simp only [hgo, if_true]
      simp only [Bool.and_eq_true, decide_eq_true_eq] at hgo
      have hm' : m'.cv < t.hi ∧ (b.r = false → m'.cv = m.cv) := by
        rcases c4 (he hgo.1) with h | h
        · exact ⟨by omega, fun _ => h⟩
        · refine ⟨?_, fun hb => absurd (hb.symm.trans h.2) (by simp)⟩
          rw [h.1]
          exact hz.2
      have hr' : t.InRange (m'.cv + 1) := ⟨by have := c2.1; omega, by omega⟩
      have hr : t.InRange (m.cv + 1) := ⟨by have := h1.1; omega, by omega⟩
      refine good_load c1 ⟨{ m' with cv := m'.cv + 1, q := decide (m'.cv + 1 ≥ m'.pv) }, ?_, hr', fun _ hb => ?_⟩ ?_
      · simp [Steps.run, arith_ok p hr', ctuStepsEnd]
      · have := hm'.2 hb
        simp only
        omega
      · simp only [arith_ok p hr]
        refine good_store c1 ⟨{ m' with cv := m.cv + 1, q := decide (m.cv + 1 ≥ m'.pv) }, ?_, hr, fun _ _ => ?_⟩ (hend _ hr fun _ _ => ?_)
        · simp [Steps.run, ctuStepsEnd]
        · simp only
          omega
        · simp only
          omega
    · simp only [hgo]
      exact hend m h1 fun _ _ => by omega
  have hQ1 : ∀ {m' r : CTUParams}, (b.r = false → s.cv ≤ m'.cv ∧ m'.cv ≤ s.cv + 1) → t.InRange r.cv → (b.r = false → m'.cv ≤ r.cv ∧ r.cv ≤ m'.cv + 1) → Q r :=
    fun h1 h2 h3 => ⟨h2, fun _ hb => by have := h1 hb; have := h3 hb; omega⟩
  have hedge : ∀ m : CTUParams, m.cv = s.cv → Good Q (ctuCall t p · b) (ctuEdge t p) m := by
    intro m hc
    have h1 : t.InRange m.cv := hc ▸ hs
    obtain ⟨m', c1, c2, _, c3, _⟩ := ctu_value t p h0 m h1 b
    rw [hc] at c3
    obtain ⟨r, r1, r2, r3⟩ := ctuEdge_run t p m' c2
    refine good_load c1 ⟨r, r1, hQ1 c3 r2 fun _ => r3⟩ ?_
    unfold Steps.rising_edge
    split
    · next hcu =>
      obtain ⟨r, r1, r2, r3⟩ := ctuCompare_run t p (m'.internal.current_value ^^ m.cu) { m' with internal := ⟨m.cu⟩ } c2
      refine good_load c1 ⟨r, r1, hQ1 c3 r2 fun _ => r3⟩ ?_
      obtain ⟨r, r1, r2, r3⟩ := ctuCompare_run t p (m.internal.current_value ^^ m.cu) { m' with internal := ⟨m.cu⟩ } c2
      exact good_store c1 ⟨r, r1, hQ1 c3 r2 fun _ => r3⟩ (hcmp _ _ hc fun _ => hcu)
    · obtain ⟨r, r1, r2, r3⟩ := ctuCompare_run t p false { m' with internal := ⟨m.cu⟩ } c2
      exact good_store c1 ⟨r, r1, hQ1 c3 r2 fun _ => r3⟩ (hcmp _ _ hc (by simp))
  have hbody : ∀ m : CTUParams, m.cv = s.cv → m.r = a.r → Good Q (ctuCall t p · b) (ctuBody t p) m := by
    intro m hc hr
    have h1 : t.InRange m.cv := hc ▸ hs
    obtain ⟨m', c1, c2, cr, c3, _⟩ := ctu_value t p h0 m h1 b
    rw [hc] at c3
    obtain ⟨r, r1, r2, r3⟩ := ctuBody_run t p h0 m' c2
    refine good_load c1 ⟨r, r1, hQ1 c3 r2 fun hb => r3 (cr.trans hb)⟩ ?_
    split
    · next hres =>
      have hno : a.r = false → False := fun h => by rw [hr, h] at hres; cases hres
      exact good_store c1 ⟨_, rfl, h0, fun h => (hno h).elim⟩ (hend _ h0 fun h => (hno h).elim)
    · exact hedge m hc
  have key : Good Q (ctuCall t p · b) (ctuSteps t p a) s := by
    have step : ∀ m : CTUParams, m.cv = s.cv → ∃ m', ctuCall t p m b = .ok m' ∧ t.InRange m'.cv ∧ m'.r = b.r ∧ (b.r = false → s.cv ≤ m'.cv ∧ m'.cv ≤ s.cv + 1) := by
      intro m hc
      obtain ⟨m', c1, c2, cr, c3, _⟩ := ctu_value t p h0 m (hc ▸ hs) b
      exact ⟨m', c1, c2, cr, hc ▸ c3⟩
    have hQ2 : ∀ {m' : CTUParams} (m'' : CTUParams), t.InRange m'.cv → (b.r = false → s.cv ≤ m'.cv ∧ m'.cv ≤ s.cv + 1) → m''.cv = m'.cv → (m''.r = a.r ∨ m''.r = b.r) →
        ∃ r, (ctuBody t p).run m'' = .ok r ∧ Q r := by
      intro m' m'' h1 h2 h3 h4
      obtain ⟨r, r1, r2, r3⟩ := ctuBody_run t p h0 m'' (h3 ▸ h1)
      refine ⟨r, r1, r2, fun ha hb => ?_⟩
      have := h2 hb
      have := r3 (by rcases h4 with h | h <;> simp [h, ha, hb])
      omega
    obtain ⟨m1, c1, c2, cr, c3⟩ := step s rfl
    refine good_store c1 (hQ2 { m1 with cu := a.cu, r := a.r, pv := a.pv } c2 c3 rfl (.inl rfl)) ?_
    obtain ⟨m1, c1, c2, cr, c3⟩ := step { s with cu := a.cu } rfl
    refine good_store c1 (hQ2 { m1 with r := a.r, pv := a.pv } c2 c3 rfl (.inl rfl)) ?_
    obtain ⟨m1, c1, c2, cr, c3⟩ := step { s with cu := a.cu, r := a.r } rfl
    refine good_store c1 (hQ2 { m1 with pv := a.pv } c2 c3 rfl (.inr cr)) ?_
    exact hbody { s with cu := a.cu, r := a.r, pv := a.pv } rfl rfl
  obtain ⟨mB, mA, h1, h2, h3⟩ := key k
  exact ⟨mB, mA, h1, h2, h3⟩

/-- All three amounts occur. -/
example : [0, 6, 13].map (fun k => ((ctuSteps .i16 .debug ⟨true, false, 9⟩).interrupted k (ctuCall .i16 .debug · ⟨true, false, 9⟩) CTUParams.default).bind fun r => .ok r.2.cv) =
      [.ok 1, .ok 2, .ok 1] ∧
    (((ctuSteps .i16 .debug ⟨true, false, 9⟩).interrupted 1 (ctuCall .i16 .debug · ⟨false, false, 9⟩) CTUParams.default).bind fun r => .ok r.2.cv) = .ok 0 := by decide

/-- What a call of CTD does to the value. -/
private theorem ctd_value (t : IntTy) (p : Profile) (m : CTDParams) (hm : t.InRange m.cv) (b : CTDIn) (hb : b.ld = false) :
    ∃ m', ctdCall t p m b = .ok m' ∧ t.InRange m'.cv ∧ m'.ld = false ∧ m'.pv = b.pv ∧ m.cv - 1 ≤ m'.cv ∧ m'.cv ≤ m.cv ∧
      (m.internal.current_value = true → m'.cv = m.cv) := by
  obtain ⟨_, _, _, _, cv, ⟨e⟩⟩ := m
  obtain ⟨cd, ld, pv⟩ := b
  simp only at hm hb
  subst hb
  by_cases h : cd = true ∧ e = false
  · obtain ⟨rfl, rfl⟩ := h
    by_cases hlt : cv > t.lo
    · have hr : t.InRange (cv - 1) := ⟨by omega, by have := hm.2; omega⟩
      refine ⟨⟨true, false, pv, decide (cv - 1 ≤ 0), cv - 1, ⟨true⟩⟩, ?_, hr, rfl, rfl, by simp only; omega, by simp only; omega, by simp⟩
      simp [ctdCall, ctd, CTDParams.r_edge, Signal.rising_edge, CTDParams.dec, CTDParams.update_q, hlt, arith_ok p hr]
    · refine ⟨⟨true, false, pv, decide (cv ≤ 0), cv, ⟨true⟩⟩, ?_, hm, rfl, rfl, by simp only; omega, by simp only; omega, by simp⟩
      simp [ctdCall, ctd, CTDParams.r_edge, Signal.rising_edge, CTDParams.update_q, hlt]
  · refine ⟨⟨cd, false, pv, decide (cv ≤ 0), cv, ⟨cd⟩⟩, ?_, hm, rfl, rfl, by simp only; omega, by simp only; omega, by simp⟩
    cases cd <;> cases e <;> first | rfl | exact absurd ⟨rfl, rfl⟩ h

private def ctdCompare (t : IntTy) (p : Profile) (e : Bool) : Steps CTDParams :=
  .load fun m => if e && decide (m.cv > t.lo) then
    .load fun m => match t.arith p (m.cv - 1) with
    | .ok v => .store ({ · with cv := v }) ctdStepsEnd
    | _ => .panic
  else ctdStepsEnd

private def ctdEdge (t : IntTy) (p : Profile) : Steps CTDParams :=
  .load fun m => Steps.rising_edge (·.internal) ({ · with internal := · }) m.cd (ctdCompare t p)

private def ctdBody (t : IntTy) (p : Profile) : Steps CTDParams :=
  .load fun m => if m.ld then .load fun m => .store ({ · with cv := m.pv }) ctdStepsEnd else ctdEdge t p

private theorem ctdCompare_run (t : IntTy) (p : Profile) (e : Bool) (m : CTDParams) (hm : t.InRange m.cv) :
    ∃ r, (ctdCompare t p e).run m = .ok r ∧ t.InRange r.cv ∧ m.cv - 1 ≤ r.cv ∧ r.cv ≤ m.cv := by
  cases e
  · exact ⟨_, rfl, hm, by simp only; omega, Int.le_refl _⟩
  · by_cases hlt : m.cv > t.lo
    · have hr : t.InRange (m.cv - 1) := ⟨by omega, by have := hm.2; omega⟩
      refine ⟨{ m with cv := m.cv - 1, q := decide (m.cv - 1 ≤ 0) }, ?_, hr, by simp only; omega, by simp only; omega⟩
      simp [ctdCompare, Steps.run, hlt, arith_ok p hr, ctdStepsEnd]
    · refine ⟨m.update_q, ?_, hm, by simp only [CTDParams.update_q]; omega, Int.le_refl _⟩
      simp [ctdCompare, Steps.run, hlt, ctdStepsEnd, CTDParams.update_q]

private theorem ctdEdge_run (t : IntTy) (p : Profile) (m : CTDParams) (hm : t.InRange m.cv) :
    ∃ r, (ctdEdge t p).run m = .ok r ∧ t.InRange r.cv ∧ m.cv - 1 ≤ r.cv ∧ r.cv ≤ m.cv := by
  simp only [ctdEdge, Steps.run, Steps.rising_edge]
  split
  · exact ctdCompare_run t p _ { m with internal := _ } hm
  · exact ctdCompare_run t p _ { m with internal := _ } hm

private theorem ctdBody_run (t : IntTy) (p : Profile) (m : CTDParams) (hm : t.InRange m.cv) (hp : t.InRange m.pv) :
    ∃ r, (ctdBody t p).run m = .ok r ∧ t.InRange r.cv ∧ (m.ld = false → m.cv - 1 ≤ r.cv ∧ r.cv ≤ m.cv) := by
  simp only [ctdBody, Steps.run]
  split
  · next h => exact ⟨_, rfl, hp, by simp [h]⟩
  · obtain ⟨r, h1, h2, h3⟩ := ctdEdge_run t p m hm
    exact ⟨r, h1, h2, fun _ => h3⟩

/-- CTD, interrupted by one call without LD: it returns, the value stays in its range, and without LD it goes down by 0, 1 or 2. -/
theorem C151_ctd_partial (t : IntTy) (p : Profile) (s : CTDParams) (hs : t.InRange s.cv) (a b : CTDIn) (hpa : t.InRange a.pv) (hpb : t.InRange b.pv) (hb : b.ld = false) (k : Nat) :
    ∃ mB mA, (ctdSteps t p a).interrupted k (ctdCall t p · b) s = .ok (mB, mA) ∧ t.InRange mA.cv ∧
      (a.ld = false → s.cv - 2 ≤ mA.cv ∧ mA.cv ≤ s.cv) := by
  let Q : CTDParams → Prop := fun m => t.InRange m.cv ∧ (a.ld = false → s.cv - 2 ≤ m.cv ∧ m.cv ≤ s.cv)
  have hend : ∀ m : CTDParams, t.InRange m.cv → (a.ld = false → s.cv - 1 ≤ m.cv ∧ m.cv ≤ s.cv) → Good Q (ctdCall t p · b) ctdStepsEnd m := by
    intro m h1 h2
    obtain ⟨m', c1, c2, _, _, c3, c4, _⟩ := ctd_value t p m h1 b hb
    have hQ : Q m' := ⟨c2, fun ha => by have := h2 ha; omega⟩
    refine good_load c1 ⟨_, rfl, hQ⟩ (good_store c1 ⟨_, rfl, hQ⟩ ?_)
    obtain ⟨m', c1, c2, _, _, c3, c4, _⟩ := ctd_value t p { m with q := decide (m.cv ≤ 0) } h1 b hb
    exact good_done c1 ⟨c2, fun ha => by have := h2 ha; simp only at c3 c4; omega⟩
  have hQ1 : ∀ {m' r : CTDParams}, s.cv - 1 ≤ m'.cv → m'.cv ≤ s.cv → t.InRange r.cv → m'.cv - 1 ≤ r.cv ∧ r.cv ≤ m'.cv → Q r :=
    fun h1 h2 h3 h4 => ⟨h3, fun _ => by omega⟩
  have hcmp : ∀ (e : Bool) (m : CTDParams), m.cv = s.cv → (e = true → m.internal.current_value = true) → Good Q (ctdCall t p · b) (ctdCompare t p e) m := by
    intro e m hc he
    have h1 : t.InRange m.cv := hc ▸ hs
    obtain ⟨m', c1, c2, _, _, c3, c4, c5⟩ := ctd_value t p m h1 b hb
    obtain ⟨r, r1, r2, r3⟩ := ctdCompare_run t p e m' c2
    refine good_load c1 ⟨r, r1, hQ1 (by omega) (by omega) r2 r3⟩ ?_
    by_cases hgo : e && decide (m.cv > t.lo)
    · simp only [hgo, if_true]
      simp only [Bool.and_eq_true, decide_eq_true_eq] at hgo
      have hm' := c5 (he hgo.1)
      have hr' : t.InRange (m'.cv - 1) := ⟨by omega, by have := c2.2; omega⟩
      have hr : t.InRange (m.cv - 1) := ⟨by omega, by have := h1.2; omega⟩
      refine good_load c1 ⟨{ m' with cv := m'.cv - 1, q := decide (m'.cv - 1 ≤ 0) }, ?_, hr', fun _ => ?_⟩ ?_
      · simp [Steps.run, arith_ok p hr', ctdStepsEnd]
      · simp only
        omega
      · simp only [arith_ok p hr]
        refine good_store c1 ⟨{ m' with cv := m.cv - 1, q := decide (m.cv - 1 ≤ 0) }, ?_, hr, fun _ => ?_⟩ (hend _ hr fun _ => ?_)
        · simp [Steps.run, ctdStepsEnd]
        · simp only
          omega
        · simp only
          omega
    · simp only [hgo]
      exact hend m h1 fun _ => by omega
  have hedge : ∀ m : CTDParams, m.cv = s.cv → Good Q (ctdCall t p · b) (ctdEdge t p) m := by
    intro m hc
    have h1 : t.InRange m.cv := hc ▸ hs
    obtain ⟨m', c1, c2, _, _, c3, c4, _⟩ := ctd_value t p m h1 b hb
    rw [hc] at c3 c4
    obtain ⟨r, r1, r2, r3⟩ := ctdEdge_run t p m' c2
    refine good_load c1 ⟨r, r1, hQ1 c3 c4 r2 r3⟩ ?_
    unfold Steps.rising_edge
    split
    · next hcu =>
      obtain ⟨r, r1, r2, r3⟩ := ctdCompare_run t p (m'.internal.current_value ^^ m.cd) { m' with internal := ⟨m.cd⟩ } c2
      refine good_load c1 ⟨r, r1, hQ1 c3 c4 r2 r3⟩ ?_
      obtain ⟨r, r1, r2, r3⟩ := ctdCompare_run t p (m.internal.current_value ^^ m.cd) { m' with internal := ⟨m.cd⟩ } c2
      exact good_store c1 ⟨r, r1, hQ1 c3 c4 r2 r3⟩ (hcmp _ _ hc fun _ => hcu)
    · obtain ⟨r, r1, r2, r3⟩ := ctdCompare_run t p false { m' with internal := ⟨m.cd⟩ } c2
      exact good_store c1 ⟨r, r1, hQ1 c3 c4 r2 r3⟩ (hcmp _ _ hc (by simp))
  have hbody : ∀ m : CTDParams, m.cv = s.cv → m.ld = a.ld → t.InRange m.pv → Good Q (ctdCall t p · b) (ctdBody t p) m := by
    intro m hc hl hp
    have h1 : t.InRange m.cv := hc ▸ hs
    obtain ⟨m', c1, c2, cl, cp, c3, c4, _⟩ := ctd_value t p m h1 b hb
    rw [hc] at c3 c4
    obtain ⟨r, r1, r2, r3⟩ := ctdBody_run t p m' c2 (cp ▸ hpb)
    refine good_load c1 ⟨r, r1, hQ1 c3 c4 r2 (r3 cl)⟩ ?_
    split
    · next hld =>
      have hno : a.ld = false → False := fun h => by rw [hl, h] at hld; cases hld
      refine good_load c1 ⟨_, rfl, ?_, fun h => (hno h).elim⟩ (good_store c1 ⟨_, rfl, hp, fun h => (hno h).elim⟩ (hend _ hp fun h => (hno h).elim))
      exact cp ▸ hpb
    · exact hedge m hc
  have key : Good Q (ctdCall t p · b) (ctdSteps t p a) s := by
    have step : ∀ m : CTDParams, m.cv = s.cv →
        ∃ m', ctdCall t p m b = .ok m' ∧ t.InRange m'.cv ∧ m'.ld = false ∧ m'.pv = b.pv ∧ s.cv - 1 ≤ m'.cv ∧ m'.cv ≤ s.cv := by
      intro m hc
      obtain ⟨m', c1, c2, cl, cp, c3, c4, _⟩ := ctd_value t p m (hc ▸ hs) b hb
      exact ⟨m', c1, c2, cl, cp, hc ▸ c3, hc ▸ c4⟩
    have hQ2 : ∀ {m' : CTDParams} (m'' : CTDParams), t.InRange m'.cv → s.cv - 1 ≤ m'.cv → m'.cv ≤ s.cv → m''.cv = m'.cv → (m''.ld = a.ld ∨ m''.ld = false) → m''.pv = a.pv →
        ∃ r, (ctdBody t p).run m'' = .ok r ∧ Q r := by
      intro m' m'' h1 h2 h2' h3 h4 h5
      obtain ⟨r, r1, r2, r3⟩ := ctdBody_run t p m'' (h3 ▸ h1) (h5 ▸ hpa)
      refine ⟨r, r1, r2, fun ha => ?_⟩
      have := r3 (by rcases h4 with h | h <;> simp [h, ha])
      omega
    obtain ⟨m1, c1, c2, cl, cp, c3, c4⟩ := step s rfl
    refine good_store c1 (hQ2 { m1 with cd := a.cd, ld := a.ld, pv := a.pv } c2 c3 c4 rfl (.inl rfl) rfl) ?_
    obtain ⟨m1, c1, c2, cl, cp, c3, c4⟩ := step { s with cd := a.cd } rfl
    refine good_store c1 (hQ2 { m1 with ld := a.ld, pv := a.pv } c2 c3 c4 rfl (.inl rfl) rfl) ?_
    obtain ⟨m1, c1, c2, cl, cp, c3, c4⟩ := step { s with cd := a.cd, ld := a.ld } rfl
    refine good_store c1 (hQ2 { m1 with pv := a.pv } c2 c3 c4 rfl (.inr cl) rfl) ?_
    exact hbody { s with cd := a.cd, ld := a.ld, pv := a.pv } rfl rfl hpa
  obtain ⟨mB, mA, h1, h2, h3⟩ := key k
  exact ⟨mB, mA, h1, h2, h3⟩

/-- All three amounts occur. -/
example : ([0, 6, 12].map fun k => ((ctdSteps .i16 .debug ⟨true, false, 9⟩).interrupted k (ctdCall .i16 .debug · ⟨true, false, 9⟩) ⟨false, true, 9, false, 9, ⟨false⟩⟩).bind
      fun r => .ok r.2.cv) = [.ok 8, .ok 7, .ok 8] ∧
    (((ctdSteps .i16 .debug ⟨true, false, 9⟩).interrupted 1 (ctdCall .i16 .debug · ⟨false, false, 9⟩) ⟨false, true, 9, false, 9, ⟨false⟩⟩).bind fun r => .ok r.2.cv) = .ok 9 := by decide

/-- What a call of CTUD does to the value. -/
private theorem ctud_value (t : IntTy) (p : Profile) (m : CTUDParams) (hm : t.InRange m.cv) (b : CTUDIn) (hb : b.r = false) (hb' : b.ld = false) :
    ∃ m', ctudCall t p m b = .ok m' ∧ t.InRange m'.cv ∧ m'.r = false ∧ m'.ld = false ∧ m'.pv = b.pv ∧ m.cv - 1 ≤ m'.cv ∧ m'.cv ≤ m.cv + 1 ∧
      (m.internal_up.current_value = true → m'.cv ≤ m.cv) ∧ (m.internal_down.current_value = true → m.cv ≤ m'.cv) := by
  obtain ⟨_, _, _, _, _, _, _, cv, ⟨e⟩, ⟨e'⟩⟩ := m
  obtain ⟨cu, cd, r, ld, pv⟩ := b
  simp only at hm hb hb'
  subst hb hb'
  by_cases hu : (cu = true ∧ e = false) ∧ ¬ (cd = true ∧ e' = false) ∧ cv < t.hi
  · obtain ⟨⟨rfl, rfl⟩, hd, hlt⟩ := hu
    have hr : t.InRange (cv + 1) := ⟨by have := hm.1; omega, by omega⟩
    refine ⟨⟨true, cd, false, false, pv, decide (cv + 1 ≥ pv), decide (cv + 1 ≤ 0), cv + 1, ⟨true⟩, ⟨cd⟩⟩, ?_, hr, rfl, rfl, rfl, by simp only; omega, by simp only; omega, by simp,
      fun _ => by simp only; omega⟩
    cases cd <;> cases e' <;> first
      | exact absurd ⟨rfl, rfl⟩ hd
      | simp [ctudCall, ctud, CTUDParams.cu_r_edge, CTUDParams.cd_r_edge, Signal.rising_edge, CTUDParams.inc, CTUDParams.update_qu, CTUDParams.update_qd, hlt, arith_ok p hr]
  · by_cases hd : (cd = true ∧ e' = false) ∧ ¬ (cu = true ∧ e = false) ∧ cv > t.lo
    · obtain ⟨⟨rfl, rfl⟩, hu', hlt⟩ := hd
      have hr : t.InRange (cv - 1) := ⟨by omega, by have := hm.2; omega⟩
      refine ⟨⟨cu, true, false, false, pv, decide (cv - 1 ≥ pv), decide (cv - 1 ≤ 0), cv - 1, ⟨cu⟩, ⟨true⟩⟩, ?_, hr, rfl, rfl, rfl, by simp only; omega, by simp only; omega,
        fun _ => by simp only; omega, by simp⟩
      cases cu <;> cases e <;> first
        | exact absurd ⟨rfl, rfl⟩ hu'
        | simp [ctudCall, ctud, CTUDParams.cu_r_edge, CTUDParams.cd_r_edge, Signal.rising_edge, CTUDParams.dec, CTUDParams.update_qu, CTUDParams.update_qd, hlt, arith_ok p hr]
    · refine ⟨⟨cu, cd, false, false, pv, decide (cv ≥ pv), decide (cv ≤ 0), cv, ⟨cu⟩, ⟨cd⟩⟩, ?_, hm, rfl, rfl, rfl, by simp only; omega, by simp only; omega,
        fun _ => Int.le_refl _, fun _ => Int.le_refl _⟩
      cases cu <;> cases e <;> cases cd <;> cases e' <;> first
        | rfl
        | (have hlt : ¬ cv < t.hi := fun h => hu ⟨⟨rfl, rfl⟩, by simp, h⟩
           simp [ctudCall, ctud, CTUDParams.cu_r_edge, CTUDParams.cd_r_edge, Signal.rising_edge, CTUDParams.update_qu, CTUDParams.update_qd, hlt])
        | (have hlt : ¬ cv > t.lo := fun h => hd ⟨⟨rfl, rfl⟩, by simp, h⟩
           simp [ctudCall, ctud, CTUDParams.cu_r_edge, CTUDParams.cd_r_edge, Signal.rising_edge, CTUDParams.update_qu, CTUDParams.update_qd, hlt])

private def ctudDown (t : IntTy) (p : Profile) (down : Bool) : Steps CTUDParams :=
  .load fun m => if down && decide (m.cv > t.lo) then
    .load fun m => match t.arith p (m.cv - 1) with
    | .ok v => .store ({ · with cv := v }) ctudStepsEnd
    | _ => .panic
  else ctudStepsEnd

private def ctudCompare (t : IntTy) (p : Profile) (up down : Bool) : Steps CTUDParams :=
  if up && down then ctudStepsEnd
  else .load fun m => if up && decide (m.cv < t.hi) then
    .load fun m => match t.arith p (m.cv + 1) with
    | .ok v => .store ({ · with cv := v }) ctudStepsEnd
    | _ => .panic
  else ctudDown t p down

private def ctudEdgeDown (t : IntTy) (p : Profile) (up : Bool) : Steps CTUDParams :=
  .load fun m => Steps.rising_edge (·.internal_down) ({ · with internal_down := · }) m.cd (ctudCompare t p up)

private def ctudEdge (t : IntTy) (p : Profile) : Steps CTUDParams :=
  .load fun m => Steps.rising_edge (·.internal_up) ({ · with internal_up := · }) m.cu (ctudEdgeDown t p)

private def ctudLoad (t : IntTy) (p : Profile) : Steps CTUDParams :=
  .load fun m => if m.ld then .load fun m => .store ({ · with cv := m.pv }) ctudStepsEnd else ctudEdge t p

private def ctudBody (t : IntTy) (p : Profile) : Steps CTUDParams :=
  .load fun m => if m.r then .store ({ · with cv := 0 }) ctudStepsEnd else ctudLoad t p

private def Near (t : IntTy) (m r : CTUDParams) : Prop := t.InRange r.cv ∧ m.cv - 1 ≤ r.cv ∧ r.cv ≤ m.cv + 1

private theorem ctudDown_run (t : IntTy) (p : Profile) (down : Bool) (m : CTUDParams) (hm : t.InRange m.cv) : ∃ r, (ctudDown t p down).run m = .ok r ∧ Near t m r := by
  cases down
  · exact ⟨_, rfl, hm, by simp only; omega, by simp only; omega⟩
  · by_cases hlt : m.cv > t.lo
    · have hr : t.InRange (m.cv - 1) := ⟨by omega, by have := hm.2; omega⟩
      refine ⟨{ m with cv := m.cv - 1, qu := decide (m.cv - 1 ≥ m.pv), qd := decide (m.cv - 1 ≤ 0) }, ?_, hr, by simp only; omega, by simp only; omega⟩
      simp [ctudDown, Steps.run, hlt, arith_ok p hr, ctudStepsEnd]
    · refine ⟨m.update_qu.update_qd, ?_, hm, by simp only [CTUDParams.update_qu, CTUDParams.update_qd]; omega, by simp only [CTUDParams.update_qu, CTUDParams.update_qd]; omega⟩
      simp [ctudDown, Steps.run, hlt, ctudStepsEnd, CTUDParams.update_qu, CTUDParams.update_qd]

private theorem ctudCompare_run (t : IntTy) (p : Profile) (up down : Bool) (m : CTUDParams) (hm : t.InRange m.cv) : ∃ r, (ctudCompare t p up down).run m = .ok r ∧ Near t m r := by
  unfold ctudCompare
  split
  · exact ⟨_, rfl, hm, by simp only; omega, by simp only; omega⟩
  · by_cases hlt : up && decide (m.cv < t.hi)
    · simp only [Steps.run, hlt, if_true]
      simp only [Bool.and_eq_true, decide_eq_true_eq] at hlt
      have hr : t.InRange (m.cv + 1) := ⟨by have := hm.1; omega, by omega⟩
      refine ⟨{ m with cv := m.cv + 1, qu := decide (m.cv + 1 ≥ m.pv), qd := decide (m.cv + 1 ≤ 0) }, ?_, hr, by simp only; omega, by simp only; omega⟩
      simp [Steps.run, arith_ok p hr, ctudStepsEnd]
    · simp only [Steps.run, hlt]
      exact ctudDown_run t p down m hm

private theorem ctudEdgeDown_run (t : IntTy) (p : Profile) (up : Bool) (m : CTUDParams) (hm : t.InRange m.cv) : ∃ r, (ctudEdgeDown t p up).run m = .ok r ∧ Near t m r := by
  simp only [ctudEdgeDown, Steps.run, Steps.rising_edge]
  split
  · exact ctudCompare_run t p up _ { m with internal_down := _ } hm
  · exact ctudCompare_run t p up _ { m with internal_down := _ } hm

private theorem ctudEdge_run (t : IntTy) (p : Profile) (m : CTUDParams) (hm : t.InRange m.cv) : ∃ r, (ctudEdge t p).run m = .ok r ∧ Near t m r := by
  simp only [ctudEdge, Steps.run, Steps.rising_edge]
  split
  · exact ctudEdgeDown_run t p _ { m with internal_up := _ } hm
  · exact ctudEdgeDown_run t p _ { m with internal_up := _ } hm

private theorem ctudLoad_run (t : IntTy) (p : Profile) (m : CTUDParams) (hm : t.InRange m.cv) (hp : t.InRange m.pv) :
    ∃ r, (ctudLoad t p).run m = .ok r ∧ t.InRange r.cv ∧ (m.ld = false → Near t m r) := by
  simp only [ctudLoad, Steps.run]
  split
  · next h => exact ⟨_, rfl, hp, by simp [h]⟩
  · obtain ⟨r, h1, h2⟩ := ctudEdge_run t p m hm
    exact ⟨r, h1, h2.1, fun _ => h2⟩

private theorem ctudBody_run (t : IntTy) (p : Profile) (h0 : t.InRange 0) (m : CTUDParams) (hm : t.InRange m.cv) (hp : t.InRange m.pv) :
    ∃ r, (ctudBody t p).run m = .ok r ∧ t.InRange r.cv ∧ (m.r = false → m.ld = false → Near t m r) := by
  simp only [ctudBody, Steps.run]
  split
  · next h => exact ⟨_, rfl, h0, by simp [h]⟩
  · obtain ⟨r, h1, h2, h3⟩ := ctudLoad_run t p m hm hp
    exact ⟨r, h1, h2, fun _ => h3⟩

/-- CTUD, interrupted by one call without R and LD: it returns, the value stays in its range, and without R and LD it changes by at most 2. -/
theorem C151_ctud_partial (t : IntTy) (p : Profile) (h0 : t.InRange 0) (s : CTUDParams) (hs : t.InRange s.cv) (a b : CTUDIn) (hpa : t.InRange a.pv) (hpb : t.InRange b.pv)
    (hb : b.r = false) (hb' : b.ld = false) (k : Nat) :
    ∃ mB mA, (ctudSteps t p a).interrupted k (ctudCall t p · b) s = .ok (mB, mA) ∧ t.InRange mA.cv ∧
      (a.r = false → a.ld = false → s.cv - 2 ≤ mA.cv ∧ mA.cv ≤ s.cv + 2) := by
  let Q : CTUDParams → Prop := fun m => t.InRange m.cv ∧ (a.r = false → a.ld = false → s.cv - 2 ≤ m.cv ∧ m.cv ≤ s.cv + 2)
  have hend : ∀ m : CTUDParams, t.InRange m.cv → (a.r = false → a.ld = false → s.cv - 1 ≤ m.cv ∧ m.cv ≤ s.cv + 1) → Good Q (ctudCall t p · b) ctudStepsEnd m := by
    intro m h1 h2
    obtain ⟨m', c1, c2, _, _, _, c3, c4, _⟩ := ctud_value t p m h1 b hb hb'
    have hQ : Q m' := ⟨c2, fun ha hl => by have := h2 ha hl; omega⟩
    refine good_load c1 ⟨_, rfl, hQ⟩ (good_load c1 ⟨_, rfl, hQ⟩ (good_store c1 ⟨_, rfl, hQ⟩ ?_))
    obtain ⟨m', c1, c2, _, _, _, c3, c4, _⟩ := ctud_value t p { m with qu := decide (m.cv ≥ m.pv) } h1 b hb hb'
    have hQ : Q m' := ⟨c2, fun ha hl => by have := h2 ha hl; simp only at c3 c4; omega⟩
    refine good_load c1 ⟨_, rfl, hQ⟩ (good_store c1 ⟨_, rfl, hQ⟩ ?_)
    obtain ⟨m', c1, c2, _, _, _, c3, c4, _⟩ := ctud_value t p { m with qu := decide (m.cv ≥ m.pv), qd := decide (m.cv ≤ 0) } h1 b hb hb'
    exact good_done c1 ⟨c2, fun ha hl => by have := h2 ha hl; simp only at c3 c4; omega⟩
  have hQ1 : ∀ {m' r : CTUDParams}, s.cv - 1 ≤ m'.cv → m'.cv ≤ s.cv + 1 → Near t m' r → Q r :=
    fun h1 h2 h3 => ⟨h3.1, fun _ _ => by have := h3.2; omega⟩
  have hdown : ∀ (down : Bool) (m : CTUDParams), m.cv = s.cv → (down = true → m.internal_down.current_value = true) → Good Q (ctudCall t p · b) (ctudDown t p down) m := by
    intro down m hc he
    have h1 : t.InRange m.cv := hc ▸ hs
    obtain ⟨m', c1, c2, _, _, _, c3, c4, _, c6⟩ := ctud_value t p m h1 b hb hb'
    obtain ⟨r, r1, r2⟩ := ctudDown_run t p down m' c2
    refine good_load c1 ⟨r, r1, hQ1 (by omega) (by omega) r2⟩ ?_
    by_cases hgo : down && decide (m.cv > t.lo)
    · simp only [hgo, if_true]
      simp only [Bool.and_eq_true, decide_eq_true_eq] at hgo
      have hm' := c6 (he hgo.1)
      have hr' : t.InRange (m'.cv - 1) := ⟨by omega, by have := c2.2; omega⟩
      have hr : t.InRange (m.cv - 1) := ⟨by omega, by have := h1.2; omega⟩
      refine good_load c1 ⟨{ m' with cv := m'.cv - 1, qu := decide (m'.cv - 1 ≥ m'.pv), qd := decide (m'.cv - 1 ≤ 0) }, ?_, hr', fun _ _ => ?_⟩ ?_
      · simp [Steps.run, arith_ok p hr', ctudStepsEnd]
      · simp only
        omega
      · simp only [arith_ok p hr]
        refine good_store c1 ⟨{ m' with cv := m.cv - 1, qu := decide (m.cv - 1 ≥ m'.pv), qd := decide (m.cv - 1 ≤ 0) }, ?_, hr, fun _ _ => ?_⟩ (hend _ hr fun _ _ => ?_)
        · simp [Steps.run, ctudStepsEnd]
        · simp only
          omega
        · simp only
          omega
    · simp only [hgo]
      exact hend m h1 fun _ _ => by omega
  have hcmp : ∀ (up down : Bool) (m : CTUDParams), m.cv = s.cv → (up = true → m.internal_up.current_value = true) → (down = true → m.internal_down.current_value = true) →
      Good Q (ctudCall t p · b) (ctudCompare t p up down) m := by
    intro up down m hc he he'
    have h1 : t.InRange m.cv := hc ▸ hs
    by_cases hud : up && down
    · simp only [ctudCompare, hud, if_true]
      exact hend m h1 fun _ _ => by omega
    · obtain ⟨m', c1, c2, _, _, _, c3, c4, c5, _⟩ := ctud_value t p m h1 b hb hb'
      obtain ⟨r, r1, r2⟩ := ctudCompare_run t p up down m' c2
      simp only [ctudCompare, hud] at r1 ⊢
      refine good_load c1 ⟨r, r1, hQ1 (by omega) (by omega) r2⟩ ?_
      by_cases hgo : up && decide (m.cv < t.hi)
      · simp only [hgo, if_true]
        simp only [Bool.and_eq_true, decide_eq_true_eq] at hgo
        have hm' := c5 (he hgo.1)
        have hr' : t.InRange (m'.cv + 1) := ⟨by have := c2.1; omega, by omega⟩
        have hr : t.InRange (m.cv + 1) := ⟨by have := h1.1; omega, by omega⟩
        refine good_load c1 ⟨{ m' with cv := m'.cv + 1, qu := decide (m'.cv + 1 ≥ m'.pv), qd := decide (m'.cv + 1 ≤ 0) }, ?_, hr', fun _ _ => ?_⟩ ?_
        · simp [Steps.run, arith_ok p hr', ctudStepsEnd]
        · simp only
          omega
        · simp only [arith_ok p hr]
          refine good_store c1 ⟨{ m' with cv := m.cv + 1, qu := decide (m.cv + 1 ≥ m'.pv), qd := decide (m.cv + 1 ≤ 0) }, ?_, hr, fun _ _ => ?_⟩ (hend _ hr fun _ _ => ?_)
          · simp [Steps.run, ctudStepsEnd]
          · simp only
            omega
          · simp only
            omega
      · simp only [hgo]
        exact hdown down m hc he'
  have hedown : ∀ (up : Bool) (m : CTUDParams), m.cv = s.cv → (up = true → m.internal_up.current_value = true) → Good Q (ctudCall t p · b) (ctudEdgeDown t p up) m := by
    intro up m hc he
    have h1 : t.InRange m.cv := hc ▸ hs
    obtain ⟨m', c1, c2, _, _, _, c3, c4, _⟩ := ctud_value t p m h1 b hb hb'
    rw [hc] at c3 c4
    obtain ⟨r, r1, r2⟩ := ctudEdgeDown_run t p up m' c2
    refine good_load c1 ⟨r, r1, hQ1 c3 c4 r2⟩ ?_
    unfold Steps.rising_edge
    split
    · next hcu =>
      obtain ⟨r, r1, r2⟩ := ctudCompare_run t p up (m'.internal_down.current_value ^^ m.cd) { m' with internal_down := ⟨m.cd⟩ } c2
      refine good_load c1 ⟨r, r1, hQ1 c3 c4 r2⟩ ?_
      obtain ⟨r, r1, r2⟩ := ctudCompare_run t p up (m.internal_down.current_value ^^ m.cd) { m' with internal_down := ⟨m.cd⟩ } c2
      exact good_store c1 ⟨r, r1, hQ1 c3 c4 r2⟩ (hcmp _ _ _ hc he fun _ => hcu)
    · obtain ⟨r, r1, r2⟩ := ctudCompare_run t p up false { m' with internal_down := ⟨m.cd⟩ } c2
      exact good_store c1 ⟨r, r1, hQ1 c3 c4 r2⟩ (hcmp _ _ _ hc he (by simp))
  have hedge : ∀ m : CTUDParams, m.cv = s.cv → Good Q (ctudCall t p · b) (ctudEdge t p) m := by
    intro m hc
    have h1 : t.InRange m.cv := hc ▸ hs
    obtain ⟨m', c1, c2, _, _, _, c3, c4, _⟩ := ctud_value t p m h1 b hb hb'
    rw [hc] at c3 c4
    obtain ⟨r, r1, r2⟩ := ctudEdge_run t p m' c2
    refine good_load c1 ⟨r, r1, hQ1 c3 c4 r2⟩ ?_
    unfold Steps.rising_edge
    split
    · next hcu =>
      obtain ⟨r, r1, r2⟩ := ctudEdgeDown_run t p (m'.internal_up.current_value ^^ m.cu) { m' with internal_up := ⟨m.cu⟩ } c2
      refine good_load c1 ⟨r, r1, hQ1 c3 c4 r2⟩ ?_
      obtain ⟨r, r1, r2⟩ := ctudEdgeDown_run t p (m.internal_up.current_value ^^ m.cu) { m' with internal_up := ⟨m.cu⟩ } c2
      exact good_store c1 ⟨r, r1, hQ1 c3 c4 r2⟩ (hedown _ _ hc fun _ => hcu)
    · obtain ⟨r, r1, r2⟩ := ctudEdgeDown_run t p false { m' with internal_up := ⟨m.cu⟩ } c2
      exact good_store c1 ⟨r, r1, hQ1 c3 c4 r2⟩ (hedown _ _ hc (by simp))
  have hload : ∀ m : CTUDParams, m.cv = s.cv → m.ld = a.ld → t.InRange m.pv → Good Q (ctudCall t p · b) (ctudLoad t p) m := by
    intro m hc hl hp
    have h1 : t.InRange m.cv := hc ▸ hs
    obtain ⟨m', c1, c2, _, cl, cp, c3, c4, _⟩ := ctud_value t p m h1 b hb hb'
    rw [hc] at c3 c4
    obtain ⟨r, r1, r2, r3⟩ := ctudLoad_run t p m' c2 (cp ▸ hpb)
    refine good_load c1 ⟨r, r1, hQ1 c3 c4 (r3 cl)⟩ ?_
    split
    · next hld =>
      have hno : a.ld = false → False := fun h => by rw [hl, h] at hld; cases hld
      refine good_load c1 ⟨_, rfl, ?_, fun _ h => (hno h).elim⟩ (good_store c1 ⟨_, rfl, hp, fun _ h => (hno h).elim⟩ (hend _ hp fun _ h => (hno h).elim))
      exact cp ▸ hpb
    · exact hedge m hc
  have hbody : ∀ m : CTUDParams, m.cv = s.cv → m.r = a.r → m.ld = a.ld → t.InRange m.pv → Good Q (ctudCall t p · b) (ctudBody t p) m := by
    intro m hc hr hl hp
    have h1 : t.InRange m.cv := hc ▸ hs
    obtain ⟨m', c1, c2, cr, cl, cp, c3, c4, _⟩ := ctud_value t p m h1 b hb hb'
    rw [hc] at c3 c4
    obtain ⟨r, r1, r2, r3⟩ := ctudBody_run t p h0 m' c2 (cp ▸ hpb)
    refine good_load c1 ⟨r, r1, hQ1 c3 c4 (r3 cr cl)⟩ ?_
    split
    · next hres =>
      have hno : a.r = false → False := fun h => by rw [hr, h] at hres; cases hres
      exact good_store c1 ⟨_, rfl, h0, fun h => (hno h).elim⟩ (hend _ h0 fun h => (hno h).elim)
    · exact hload m hc hl hp
  have key : Good Q (ctudCall t p · b) (ctudSteps t p a) s := by
    have step : ∀ m : CTUDParams, m.cv = s.cv →
        ∃ m', ctudCall t p m b = .ok m' ∧ t.InRange m'.cv ∧ m'.r = false ∧ m'.ld = false ∧ m'.pv = b.pv ∧ s.cv - 1 ≤ m'.cv ∧ m'.cv ≤ s.cv + 1 := by
      intro m hc
      obtain ⟨m', c1, c2, cr, cl, cp, c3, c4, _⟩ := ctud_value t p m (hc ▸ hs) b hb hb'
      exact ⟨m', c1, c2, cr, cl, cp, hc ▸ c3, hc ▸ c4⟩
    have hQ2 : ∀ {m' : CTUDParams} (m'' : CTUDParams), t.InRange m'.cv → s.cv - 1 ≤ m'.cv → m'.cv ≤ s.cv + 1 → m''.cv = m'.cv → (m''.r = a.r ∨ m''.r = false) →
        (m''.ld = a.ld ∨ m''.ld = false) → m''.pv = a.pv → ∃ r, (ctudBody t p).run m'' = .ok r ∧ Q r := by
      intro m' m'' h1 h2 h2' h3 h4 h4' h5
      obtain ⟨r, r1, r2, r3⟩ := ctudBody_run t p h0 m'' (h3 ▸ h1) (h5 ▸ hpa)
      refine ⟨r, r1, r2, fun ha hl => ?_⟩
      have := (r3 (by rcases h4 with h | h <;> simp [h, ha]) (by rcases h4' with h | h <;> simp [h, hl])).2
      omega
    obtain ⟨m1, c1, c2, cr, cl, cp, c3, c4⟩ := step s rfl
    refine good_store c1 (hQ2 { m1 with cu := a.cu, cd := a.cd, r := a.r, ld := a.ld, pv := a.pv } c2 c3 c4 rfl (.inl rfl) (.inl rfl) rfl) ?_
    obtain ⟨m1, c1, c2, cr, cl, cp, c3, c4⟩ := step { s with cu := a.cu } rfl
    refine good_store c1 (hQ2 { m1 with cd := a.cd, r := a.r, ld := a.ld, pv := a.pv } c2 c3 c4 rfl (.inl rfl) (.inl rfl) rfl) ?_
    obtain ⟨m1, c1, c2, cr, cl, cp, c3, c4⟩ := step { s with cu := a.cu, cd := a.cd } rfl
    refine good_store c1 (hQ2 { m1 with r := a.r, ld := a.ld, pv := a.pv } c2 c3 c4 rfl (.inl rfl) (.inl rfl) rfl) ?_
    obtain ⟨m1, c1, c2, cr, cl, cp, c3, c4⟩ := step { s with cu := a.cu, cd := a.cd, r := a.r } rfl
    refine good_store c1 (hQ2 { m1 with ld := a.ld, pv := a.pv } c2 c3 c4 rfl (.inr cr) (.inl rfl) rfl) ?_
    obtain ⟨m1, c1, c2, cr, cl, cp, c3, c4⟩ := step { s with cu := a.cu, cd := a.cd, r := a.r, ld := a.ld } rfl
    refine good_store c1 (hQ2 { m1 with pv := a.pv } c2 c3 c4 rfl (.inr cr) (.inr cl) rfl) ?_
    exact hbody { s with cu := a.cu, cd := a.cd, r := a.r, ld := a.ld, pv := a.pv } rfl rfl rfl hpa
  obtain ⟨mB, mA, h1, h2, h3⟩ := key k
  exact ⟨mB, mA, h1, h2, h3⟩

/-- With edges at both inputs a call changes nothing, and so do two calls; if the second interrupts the first, the value can go up by 1. -/
example : [8, 9, 10, 11].map (fun k => ((ctudSteps .i16 .debug ⟨true, true, false, false, 9⟩).interrupted k (ctudCall .i16 .debug · ⟨true, true, false, false, 9⟩) CTUDParams.default).bind
    fun r => .ok r.2.cv) = [.ok 0, .ok 1, .ok 0, .ok 0] := by decide

/-! ### Timers that are called with the same IN -/

private theorem safe_finish {call : TimerParams → TimerIn → Res TimerParams} {C : TimerIn → Prop} {Inv : TimerParams → Prop} (hk : Kept call C fun _ => True) (q : Bool) :
    Safe call C Inv (TimerParams.finishSteps q) :=
  safe_any (safe_store (Inv' := fun _ => True) hk (fun _ _ => trivial) (safe_load hk fun _ _ => ⟨fun _ => True, trivial,
    safe_store (Inv' := fun _ => True) hk (fun _ _ => trivial) safe_done⟩))

private theorem safe_range {call : TimerParams → TimerIn → Res TimerParams} {C : TimerIn → Prop} {Inv : TimerParams → Prop} (hk : Kept call C Inv) (now : Nat)
    {next : Bool → Steps TimerParams} (hn : ∀ w, Safe call C Inv (next w)) : Safe call C Inv (TimerParams.rangeSteps now next) :=
  safe_load hk fun _ h => ⟨Inv, h, safe_load hk fun _ h => ⟨Inv, h, hn _⟩⟩

private theorem safe_update {call : TimerParams → TimerIn → Res TimerParams} {C : TimerIn → Prop} {Inv : TimerParams → Prop} (hk : Kept call C Inv)
    (hrun : ∀ m, Inv m → m.start_time.isSome) (het : ∀ m v, Inv m → Inv { m with elapsed_time := v }) (now : Nat)
    {next : Steps TimerParams} (hn : Safe call C Inv next) : Safe call C Inv (TimerParams.updateSteps now next) := by
  refine safe_load hk fun m h => ⟨Inv, h, ?_⟩
  rw [if_pos (hrun m h)]
  refine safe_load hk fun m1 h1 => ⟨Inv, h1, safe_load hk fun m2 h2 => ⟨Inv, h2, ?_⟩⟩
  obtain ⟨st, hst⟩ := Option.isSome_iff_exists.1 (hrun m2 h2)
  simp only [TimerParams.get_run_time, hst, Option.map_some]
  exact safe_store (Inv' := Inv) hk (fun m hm => het m _ hm) hn

private theorem safe_start {call : TimerParams → TimerIn → Res TimerParams} {C : TimerIn → Prop} {Inv : TimerParams → Prop} (hk : Kept call C fun _ => True) (now : Nat)
    {next : Steps TimerParams} (hn : Safe call C (fun _ => True) next) : Safe call C Inv (TimerParams.startSteps now next) :=
  safe_any (safe_store (Inv' := fun _ => True) hk (fun _ _ => trivial) (safe_store (Inv' := fun _ => True) hk (fun _ _ => trivial) hn))

private theorem safe_reset {call : TimerParams → TimerIn → Res TimerParams} {C : TimerIn → Prop} {Inv : TimerParams → Prop} (hk : Kept call C fun _ => True)
    {next : Steps TimerParams} (hn : Safe call C (fun _ => True) next) : Safe call C Inv (TimerParams.resetSteps next) :=
  safe_any (safe_store (Inv' := fun _ => True) hk (fun _ _ => trivial) (safe_store (Inv' := fun _ => True) hk (fun _ _ => trivial) hn))

private theorem safe_rise {call : TimerParams → TimerIn → Res TimerParams} {C : TimerIn → Prop} {Inv : TimerParams → Prop} (hk : Kept call C fun _ => True)
    {next : Bool → Steps TimerParams} (hn : ∀ e, Safe call C (fun _ => True) (next e)) : Safe call C Inv (TimerParams.riseSteps next) := by
  refine safe_any (safe_load hk fun m _ => ⟨fun _ => True, trivial, ?_⟩)
  unfold Steps.rising_edge
  split
  · exact safe_load hk fun _ _ => ⟨fun _ => True, trivial, safe_store hk (fun _ _ => trivial) (hn _)⟩
  · exact safe_store hk (fun _ _ => trivial) (hn _)

private theorem ton_total (m : TimerParams) (b : TimerIn) : ∃ m', TON.call m b = .ok m' := by
  obtain ⟨_, _, _, _, ⟨e⟩, st⟩ := m
  obtain ⟨inp, pt, t1, t2⟩ := b
  cases inp
  · exact ⟨_, rfl⟩
  · cases st <;> cases e <;> exact ⟨_, rfl⟩

private theorem tof_total (m : TimerParams) (b : TimerIn) : ∃ m', TOF.call m b = .ok m' := by
  obtain ⟨_, _, _, _, ⟨e⟩, st⟩ := m
  obtain ⟨inp, pt, t1, t2⟩ := b
  cases inp <;> cases e <;> cases st <;> exact ⟨_, rfl⟩

/-- TON, interrupted again and again by calls with the same IN: it returns. -/
theorem C151_ton_partial (s : TimerParams) (a : TimerIn) : ReturnsAmong TON.call TON.steps (fun b => b.input = a.input) s a := by
  let C : TimerIn → Prop := fun b => b.input = a.input
  have k0 : Kept TON.call C fun _ => True := fun m b _ _ => (ton_total m b).imp fun _ h => ⟨h, trivial⟩
  have k1 : Kept TON.call C fun m => m.input = a.input := by
    rintro ⟨_, _, _, _, ⟨e⟩, st⟩ ⟨inp, pt, t1, t2⟩ _ (hc : inp = a.input)
    cases inp
    · exact ⟨_, rfl, hc⟩
    · cases st <;> cases e <;> exact ⟨_, rfl, hc⟩
  refine safe_store (Inv' := fun m => m.input = a.input) k0 (fun _ _ => rfl) (safe_store (Inv' := fun m => m.input = a.input) k1 (fun _ h => h)
    (safe_load k1 fun m hm => ⟨fun m => m.input = a.input, hm, ?_⟩)) s trivial
  split
  · next hin =>
    have ha : a.input = true := hm.symm.trans hin
    refine safe_load k1 fun m hm => ⟨fun m' => m.start_time.isSome → m'.start_time.isSome, id, ?_⟩
    split
    · next hst =>
      have k2 : Kept TON.call C fun m' => m.start_time.isSome → m'.start_time.isSome := by
        rintro ⟨_, _, _, _, ⟨e⟩, st⟩ ⟨inp, pt, t1, t2⟩ h (hc : inp = a.input)
        rw [ha] at hc
        subst hc
        cases st
        · exact absurd (h hst) (by simp)
        · exact ⟨_, rfl, fun _ => rfl⟩
      exact safe_update k2 (fun _ h => h hst) (fun _ _ h => h) _ (safe_range k2 _ fun w => safe_finish k0 _)
    · exact safe_rise k0 fun e => by
        split
        · exact safe_start k0 _ (safe_finish k0 _)
        · exact safe_finish k0 _
  · exact safe_reset k0 (safe_finish k0 _)

/-- TOF, interrupted again and again by calls with the same IN: it returns. -/
theorem C151_tof_partial (s : TimerParams) (a : TimerIn) : ReturnsAmong TOF.call TOF.steps (fun b => b.input = a.input) s a := by
  let C : TimerIn → Prop := fun b => b.input = a.input
  have k0 : Kept TOF.call C fun _ => True := fun m b _ _ => (tof_total m b).imp fun _ h => ⟨h, trivial⟩
  have k1 : Kept TOF.call C fun m => m.input = a.input := by
    rintro ⟨_, _, _, _, ⟨e⟩, st⟩ ⟨inp, pt, t1, t2⟩ _ (hc : inp = a.input)
    cases inp <;> cases e <;> cases st <;> exact ⟨_, rfl, hc⟩
  refine safe_store (Inv' := fun m => m.input = a.input) k0 (fun _ _ => rfl) (safe_store (Inv' := fun m => m.input = a.input) k1 (fun _ h => h)
    (safe_load k1 fun m hm => ⟨fun m => m.input = a.input, hm, ?_⟩)) s trivial
  split
  · exact safe_rise k0 fun e => by
      split
      · exact safe_reset k0 (safe_finish k0 _)
      · exact safe_finish k0 _
  · next hin =>
    have ha : a.input = false := by simpa [hm] using hin
    have hnext : ∀ fall : Bool, Safe TOF.call C (fun _ => True) (if fall then TimerParams.startSteps a.t1 (TimerParams.finishSteps true)
        else .load fun m => if m.start_time.isSome then TimerParams.updateSteps a.t1 <| TimerParams.rangeSteps a.t2 fun within => TimerParams.finishSteps within
          else TimerParams.finishSteps false) := by
      intro fall
      split
      · exact safe_start k0 _ (safe_finish k0 _)
      · refine safe_load k0 fun m _ => ⟨fun m' => m.start_time.isSome → m'.start_time.isSome, id, ?_⟩
        split
        · next hst =>
          have k2 : Kept TOF.call C fun m' => m.start_time.isSome → m'.start_time.isSome := by
            rintro ⟨_, _, _, _, ⟨e⟩, st⟩ ⟨inp, pt, t1, t2⟩ h (hc : inp = a.input)
            rw [ha] at hc
            subst hc
            cases st
            · exact absurd (h hst) (by simp)
            · cases e <;> exact ⟨_, rfl, fun _ => rfl⟩
          exact safe_update k2 (fun _ h => h hst) (fun _ _ h => h) _ (safe_range k2 _ fun w => safe_finish k0 _)
        · exact safe_finish k0 _
    refine safe_any (safe_load k0 fun m _ => ⟨fun _ => True, trivial, ?_⟩)
    unfold Steps.falling_edge
    split
    · exact safe_store k0 (fun _ _ => trivial) (hnext _)
    · exact safe_load k0 fun _ _ => ⟨fun _ => True, trivial, safe_store k0 (fun _ _ => trivial) (hnext _)⟩

/-- TP that is running, interrupted again and again by calls that all have IN = TRUE as it has: it returns. -/
theorem C151_tp_partial (s : TimerParams) (hs : s.start_time.isSome) (a : TimerIn) (ha : a.input = true) : ReturnsAmong TP.call TP.steps (fun b => b.input = true) s a := by
  let C : TimerIn → Prop := fun b => b.input = true
  have k : ∀ m b, m.start_time.isSome → C b → ∃ m', TP.call m b = .ok m' ∧ m'.start_time.isSome ∧ m'.input = true := by
    rintro ⟨_, _, q, et, ⟨e⟩, st⟩ ⟨inp, pt, t1, t2⟩ h (rfl : inp = true)
    cases st with
    | none => exact absurd h (by simp)
    | some st =>
      simp only [TP.call, TP, TimerParams.is_running, Option.isSome_some, if_true]
      split
      · exact ⟨_, rfl, rfl, rfl⟩
      · exact ⟨_, rfl, by cases e <;> exact ⟨rfl, rfl⟩⟩
  let Inv : TimerParams → Prop := fun m => m.start_time.isSome ∧ m.input = true
  have k0 : Kept TP.call C fun m => m.start_time.isSome := fun m b h hb => (k m b h hb).imp fun _ h => ⟨h.1, h.2.1⟩
  have k1 : Kept TP.call C Inv := fun m b h hb => k m b h.1 hb
  have hfin : ∀ q, Safe TP.call C Inv (TimerParams.finishSteps q) := fun q =>
    safe_store (Inv' := Inv) k1 (fun _ h => h) (safe_load k1 fun _ h => ⟨Inv, h, safe_store (Inv' := Inv) k1 (fun _ h => h) safe_done⟩)
  refine (?_ : Safe TP.call C (fun m => m.start_time.isSome) (TP.steps a)) s hs
  unfold TP.steps
  refine safe_store (Inv' := Inv) k0 (fun m h => ⟨h, ha⟩) (safe_store (Inv' := Inv) k1 (fun _ h => h) (safe_load k1 fun m hm => ⟨Inv, hm, ?_⟩))
  rw [if_pos hm.1]
  refine safe_update k1 (fun _ h => h.1) (fun _ _ h => h) _ (safe_range k1 _ fun w => ?_)
  split
  · exact hfin _
  · refine safe_load k1 fun m hm => ⟨Inv, hm, ?_⟩
    simp only [Steps.falling_edge, hm.2, if_true]
    exact safe_store (Inv' := Inv) k1 (fun _ h => h) (hfin _)

/-- TON with IN = TRUE, interrupted between the look at the start time and the detection of the edge: it returns, but gives TRUE at once (PT is 100). -/
example : (TON.steps ⟨true, 100, 0, 0⟩).runWith TON.call [[], [], [], [], [⟨true, 100, 0, 0⟩]] TimerParams.default = .ok ⟨true, 100, true, 0, ⟨true⟩, some 0⟩ := by decide

/-- TOF in its delay and TP in its pulse, interrupted twice. -/
example : (TOF.steps ⟨false, 100, 30, 30⟩).runWith TOF.call [[⟨false, 100, 10, 10⟩], [], [], [⟨false, 100, 20, 20⟩]] ⟨true, 100, true, 0, ⟨true⟩, none⟩ =
      .ok ⟨false, 100, true, 20, ⟨false⟩, some 10⟩ ∧
    (TP.steps ⟨true, 100, 30, 30⟩).runWith TP.call [[], [⟨true, 100, 10, 10⟩], [], [⟨true, 100, 20, 20⟩]] ⟨true, 100, true, 0, ⟨true⟩, some 0⟩ =
      .ok ⟨true, 100, true, 30, ⟨true⟩, some 0⟩ := by decide

end Verif
