import Verif.Model.HalfStores
import Verif.Props.InterruptedReads
import Verif.Props.Timers
/-
C174: 64-bit outputs on a 32-bit controller, read by another task.
-/
namespace Verif
open Spec

namespace Spec

/-- `r` can be read from a field of type `t` by a task that loads both halves at one moment while the field takes the values `l`. -/
def ReadsAtOnce (t : IntTy) (o : HalfFirst) (l : List Int) (r : Int) : Prop := ∃ a ∈ halfMoments o l, r = joinWords t a.1 a.2

/-- `r` can be read by a task that loads the halves at any two moments. -/
def ReadsInHalves (t : IntTy) (o : HalfFirst) (l : List Int) (r : Int) : Prop :=
  ∃ a ∈ halfMoments o l, ∃ b ∈ halfMoments o l, r = joinWords t a.1 b.2

/-- What can be read of the output `x` in a call: its value from before the call or the value from after it. -/
def ReadsBeforeOrAfter {S : Type} (t : IntTy) (reads : IntTy → HalfFirst → List Int → Int → Prop) (o : HalfFirst) (x : S → Int)
    (moments : List S) (before after : S) : Prop :=
  ∀ r, reads t o (x before :: moments.map x) r → r = x before ∨ r = x after

end Spec

private theorem join_words {t : IntTy} (ht : t = .i64 ∨ t = .u64) {v : Int} (hv : t.InRange v) : joinWords t (lowWord v) (highWord v) = v := by
  unfold joinWords lowWord highWord
  rcases ht with rfl | rfl
  · simp [IntTy.InRange, IntTy.lo, IntTy.hi, IntTy.i64] at hv
    simp only [IntTy.wrap, IntTy.i64, if_true]
    rw [Int.bmod_def]
    push_cast
    split <;> omega
  · simp [IntTy.InRange, IntTy.lo, IntTy.hi, IntTy.u64] at hv
    simp only [IntTy.wrap, IntTy.u64]
    push_cast
    simp
    omega

/-- Each half in the memory is the half of one of the values. -/
private theorem halves_mem (o : HalfFirst) (l : List Int) : ∀ a ∈ halfMoments o l, (∃ u ∈ l, a.1 = lowWord u) ∧ (∃ v ∈ l, a.2 = highWord v) := by
  induction l with
  | nil => intro a ha; cases ha
  | cons u l ih =>
    cases l with
    | nil => intro a ha; simp only [halfMoments, List.mem_singleton] at ha; subst ha; exact ⟨⟨u, by simp, rfl⟩, ⟨u, by simp, rfl⟩⟩
    | cons v l =>
      intro a ha
      simp only [halfMoments, List.mem_cons] at ha
      rcases ha with rfl | rfl | ha
      · exact ⟨⟨u, by simp, rfl⟩, ⟨u, by simp, rfl⟩⟩
      · cases o
        · exact ⟨⟨v, by simp, rfl⟩, ⟨u, by simp, rfl⟩⟩
        · exact ⟨⟨u, by simp, rfl⟩, ⟨v, by simp, rfl⟩⟩
      · obtain ⟨⟨x, hx, e⟩, ⟨y, hy, f⟩⟩ := ih a ha
        exact ⟨⟨x, List.mem_cons_of_mem _ hx, e⟩, ⟨y, List.mem_cons_of_mem _ hy, f⟩⟩

private theorem once_values {S : Type} {x : S → Int} {ms : List S} {s s' : S} (h : ChangesOnce x ms s s') :
    ∀ v ∈ x s :: ms.map x, v = x s ∨ v = x s' := by
  obtain ⟨a, b, rfl, h1, h2⟩ := h
  intro v hv
  simp only [List.mem_cons, List.mem_map, List.mem_append] at hv
  rcases hv with rfl | ⟨m, hm | hm, rfl⟩
  · exact .inl rfl
  · exact .inl (h1 m hm)
  · exact .inr (h2 m hm)

private theorem reads_of_once {S : Type} {x : S → Int} {ms : List S} {s s' : S} (h : ChangesOnce x ms s s') {t : IntTy} {o : HalfFirst} {r : Int}
    (hr : ReadsInHalves t o (x s :: ms.map x) r) :
    ∃ u v, (u = x s ∨ u = x s') ∧ (v = x s ∨ v = x s') ∧ r = joinWords t (lowWord u) (highWord v) := by
  obtain ⟨a, ha, b, hb, rfl⟩ := hr
  obtain ⟨⟨u, hu, e⟩, -⟩ := halves_mem o _ a ha
  obtain ⟨-, ⟨v, hv, f⟩⟩ := halves_mem o _ b hb
  exact ⟨u, v, once_values h u hu, once_values h v hv, by rw [e, f]⟩

private theorem same_high {S : Type} {x : S → Int} {ms : List S} {s s' : S} (h : ChangesOnce x ms s s') {t : IntTy} (ht : t = .i64 ∨ t = .u64)
    (h1 : t.InRange (x s)) (h2 : t.InRange (x s')) (hh : highWord (x s) = highWord (x s')) (o : HalfFirst) :
    ReadsBeforeOrAfter t ReadsInHalves o x ms s s' := by
  intro r hr
  obtain ⟨u, v, hu, hv, rfl⟩ := reads_of_once h hr
  have e : highWord v = highWord u := by
    rcases hu with rfl | rfl <;> rcases hv with rfl | rfl <;> simp [hh]
  rw [e]
  rcases hu with rfl | rfl
  · exact .inl (join_words ht h1)
  · exact .inr (join_words ht h2)

/-! ### Where it is false -/

private def pick (o : HalfFirst) (a b : Int) : Int :=
  match o with
  | .low => a
  | .high => b

private theorem not_claim {S I : Type} {call : S → I → Res S} {stores : S → I → Res (List S)} {fresh : S} {x : S → Int} {h : List I} {i : I} {s s' : S}
    {vals : List Int} {claim : List S → S → S → Prop} (hs : runFB call fresh h = .ok s) (hc : call s i = .ok s')
    (hm : (stores s i >>= fun l => .ok (l.map x)) = .ok vals) (hn : ∀ ms : List S, ms.map x = vals → ¬ claim ms s s') :
    ¬ InEveryCall call stores fresh claim := fun hall => by
  obtain ⟨ms, e, hv⟩ := Res.bind_eq_ok.1 hm
  exact hn ms (Res.ok.inj hv) (hall h s i s' ms hs hc e)

/-- **C174 is false** of CV of CTD and CTUD with LINT and ULINT and of ET of TON: whichever half is stored first, a task that interrupts the call can
read a value that the output has neither before nor after it. -/
theorem C174_refuted (t : IntTy) (ht : t = .i64 ∨ t = .u64) (p : Profile) (o : HalfFirst) :
    ¬ InEveryCall (ctdCall t p) (ctdCallStores t p) CTDParams.default (ReadsBeforeOrAfter t ReadsAtOnce o (·.cv)) ∧
    ¬ InEveryCall (ctudCall t p) (ctudCallStores t p) CTUDParams.default (ReadsBeforeOrAfter t ReadsAtOnce o (·.cv)) ∧
    ¬ InEveryCall TON.call TON.callStores TimerParams.default (ReadsBeforeOrAfter .i64 ReadsAtOnce o (·.elapsed_time)) := by
  refine ⟨?_, ?_, ?_⟩
  · refine not_claim (h := [⟨false, true, 4294967296⟩]) (i := ⟨true, false, 4294967296⟩) (x := (·.cv))
      (s := ⟨false, true, 4294967296, false, 4294967296, ⟨false⟩⟩) (s' := ⟨true, false, 4294967296, false, 4294967295, ⟨true⟩⟩)
      (vals := [4294967296, 4294967296, 4294967295, 4294967295]) ?_ ?_ ?_ fun ms hms hall => ?_
    · rcases ht with rfl | rfl <;> cases p <;> decide
    · rcases ht with rfl | rfl <;> cases p <;> decide
    · rcases ht with rfl | rfl <;> cases p <;> decide
    · unfold ReadsBeforeOrAfter at hall
      rw [hms] at hall
      have := hall (pick o 8589934591 0)
        (by unfold ReadsAtOnce; rcases ht with rfl | rfl <;> cases o <;> decide)
      cases o <;> exact absurd this (by decide)
  · refine not_claim (h := [⟨false, false, false, true, 4294967295⟩]) (i := ⟨true, false, false, false, 4294967295⟩) (x := (·.cv))
      (s := ⟨false, false, false, true, 4294967295, true, false, 4294967295, ⟨false⟩, ⟨false⟩⟩)
      (s' := ⟨true, false, false, false, 4294967295, true, false, 4294967296, ⟨true⟩, ⟨false⟩⟩)
      (vals := [4294967295, 4294967295, 4294967295, 4294967296, 4294967296, 4294967296]) ?_ ?_ ?_ fun ms hms hall => ?_
    · rcases ht with rfl | rfl <;> cases p <;> decide
    · rcases ht with rfl | rfl <;> cases p <;> decide
    · rcases ht with rfl | rfl <;> cases p <;> decide
    · unfold ReadsBeforeOrAfter at hall
      rw [hms] at hall
      have := hall (pick o 0 8589934591)
        (by unfold ReadsAtOnce; rcases ht with rfl | rfl <;> cases o <;> decide)
      cases o <;> exact absurd this (by decide)
  · refine not_claim (h := [⟨true, 5000000000, 0, 0⟩, ⟨true, 5000000000, 4294967295, 4294967295⟩])
      (i := ⟨true, 5000000000, 4294967296, 4294967296⟩) (x := (·.elapsed_time))
      (s := ⟨true, 5000000000, false, 4294967295, ⟨true⟩, some 0⟩) (s' := ⟨true, 5000000000, false, 4294967296, ⟨true⟩, some 0⟩)
      (vals := [4294967295, 4294967296, 4294967296, 4294967296]) (by decide) (by decide) (by decide) fun ms hms hall => ?_
    unfold ReadsBeforeOrAfter at hall
    rw [hms] at hall
    have := hall (pick o 0 8589934591) (by unfold ReadsAtOnce; cases o <;> decide)
    cases o <;> exact absurd this (by decide)

/-- **C174**, C12 seen from another task: ET of a TON can be read above PT. -/
theorem C174_refuted_bound (o : HalfFirst) :
    ¬ InEveryCall TON.call TON.callStores TimerParams.default fun moments s s' =>
      ∀ r, ReadsInHalves .i64 o (s.elapsed_time :: moments.map (·.elapsed_time)) r → r ≤ s'.preset_time := by
  refine not_claim (h := [⟨true, 5000000000, 0, 0⟩, ⟨true, 5000000000, 4294967295, 4294967295⟩])
    (i := ⟨true, 5000000000, 4294967296, 4294967296⟩) (x := (·.elapsed_time))
    (s := ⟨true, 5000000000, false, 4294967295, ⟨true⟩, some 0⟩) (s' := ⟨true, 5000000000, false, 4294967296, ⟨true⟩, some 0⟩)
    (vals := [4294967295, 4294967296, 4294967296, 4294967296]) (by decide) (by decide) (by decide) fun ms hms hall => ?_
  rw [hms] at hall
  have := hall 8589934591 (by unfold ReadsInHalves; cases o <;> decide)
  exact absurd this (by decide)

/-! ### What holds -/

namespace Spec
/-- In a call that leaves the upper half of the output `x` as it is, a task reads the value from before the call or the one from after it, whichever
half is stored first and even if the task loads the two halves at different moments. -/
def SameHighReads {S : Type} (t : IntTy) (x : S → Int) (moments : List S) (s s' : S) : Prop :=
  t.InRange (x s) → t.InRange (x s') → x s / 2 ^ 32 = x s' / 2 ^ 32 → ∀ o, ReadsBeforeOrAfter t ReadsInHalves o x moments s s'

/-- In a call that does not decrease the output `x`, a task reads no less than the multiple of 2^32 below the old value and less than the multiple of 2^32
above the new one. -/
def ReadsNear {S : Type} (t : IntTy) (x : S → Int) (moments : List S) (s s' : S) : Prop :=
  t.InRange (x s') → 0 ≤ x s → x s ≤ x s' → ∀ o r, ReadsInHalves t o (x s :: moments.map x) r →
    x s / 2 ^ 32 * 2 ^ 32 ≤ r ∧ r < (x s' / 2 ^ 32 + 1) * 2 ^ 32
end Spec

private theorem every_mono {S I : Type} {call : S → I → Res S} {stores : S → I → Res (List S)} {fresh : S} {A B : List S → S → S → Prop}
    (h : InEveryCall call stores fresh A) (hab : ∀ ms s s', A ms s s' → B ms s s') : InEveryCall call stores fresh B :=
  fun h' s i s' ms a b c => hab ms s s' (h h' s i s' ms a b c)

private theorem same_of_order {S W : Type} {x : S → Int} {y : S → W} {t : IntTy} (ht : t = .i64 ∨ t = .u64) (ms : List S) (s s' : S)
    (h : ChangesInOrder x y ms s s') : SameHighReads t x ms s s' := fun h1 h2 hh o =>
  same_high (changesOnce_of_order h).1 ht h1 h2 (by unfold highWord; rw [hh]) o

private theorem near_of_order {S W : Type} {x : S → Int} {y : S → W} {t : IntTy} (ht : t = .i64 ∨ t = .u64) (ms : List S) (s s' : S)
    (h : ChangesInOrder x y ms s s') : ReadsNear t x ms s s' := fun h2 h0 hle o r hr => by
  obtain ⟨u, v, hu, hv, rfl⟩ := reads_of_once (changesOnce_of_order h).1 hr
  have hu' : x s ≤ u ∧ u ≤ x s' := by rcases hu with rfl | rfl <;> omega
  have hv' : x s ≤ v ∧ v ≤ x s' := by rcases hv with rfl | rfl <;> omega
  have hb : x s' < 2 ^ 64 ∧ (t = .i64 → x s' < 2 ^ 63) := by
    rcases ht with rfl | rfl <;> simp [IntTy.InRange, IntTy.lo, IntTy.hi, IntTy.i64, IntTy.u64] at h2 ⊢ <;> omega
  have key : joinWords t (lowWord u) (highWord v) = v / 2 ^ 32 * 2 ^ 32 + u % 2 ^ 32 := by
    have e1 : ((highWord v * 2 ^ 32 + lowWord u : Nat) : Int) = v / 2 ^ 32 * 2 ^ 32 + u % 2 ^ 32 := by
      unfold highWord lowWord; push_cast; omega
    have hr : t.InRange (v / 2 ^ 32 * 2 ^ 32 + u % 2 ^ 32) := by
      rcases ht with rfl | rfl <;> simp [IntTy.InRange, IntTy.lo, IntTy.hi, IntTy.i64, IntTy.u64] at hb ⊢ <;> omega
    unfold joinWords
    rw [e1]
    rcases ht with rfl | rfl
    · exact IntTy.wrap_of_inRange _ (by decide) hr
    · exact IntTy.wrap_of_inRange _ (by decide) hr
  rw [key]
  omega

/-- What holds of **C174**: in a call that leaves the upper half of the output as it is. -/
theorem C174_same_high_partial (t : IntTy) (ht : t = .i64 ∨ t = .u64) (p : Profile) :
    InEveryCall (ctuCall t p) (ctuCallStores t p) CTUParams.default (SameHighReads t (·.cv)) ∧
    InEveryCall (ctdCall t p) (ctdCallStores t p) CTDParams.default (SameHighReads t (·.cv)) ∧
    InEveryCall (ctudCall t p) (ctudCallStores t p) CTUDParams.default (SameHighReads t (·.cv)) ∧
    InEveryCall TON.call TON.callStores TimerParams.default (SameHighReads .i64 (·.elapsed_time)) ∧
    InEveryCall TOF.call TOF.callStores TimerParams.default (SameHighReads .i64 (·.elapsed_time)) := by
  obtain ⟨a, b, c, -, d, e⟩ := C149_order_partial t p CTUParams.default CTDParams.default CTUDParams.default TimerParams.default
  exact ⟨every_mono a (same_of_order ht), every_mono b (same_of_order ht), every_mono c (same_of_order ht), every_mono d (same_of_order (.inl rfl)),
    every_mono e (same_of_order (.inl rfl))⟩

/-- A call that leaves the upper half as it is: a TON five seconds after its start, one second later. -/
example : runFB TON.call TimerParams.default [⟨true, 9000000000, 0, 0⟩, ⟨true, 9000000000, 5000000000, 5000000000⟩] =
      .ok ⟨true, 9000000000, false, 5000000000, ⟨true⟩, some 0⟩ ∧
    TON.call ⟨true, 9000000000, false, 5000000000, ⟨true⟩, some 0⟩ ⟨true, 9000000000, 6000000000, 6000000000⟩ =
      .ok ⟨true, 9000000000, false, 6000000000, ⟨true⟩, some 0⟩ ∧
    IntTy.i64.InRange 5000000000 ∧ IntTy.i64.InRange 6000000000 ∧ (5000000000 / 2 ^ 32 : Int) = 6000000000 / 2 ^ 32 := by
  unfold IntTy.InRange; decide

/-- What holds of **C174** in a call that counts up or in which ET goes on: a bound for the error. -/
theorem C174_error_partial (t : IntTy) (ht : t = .i64 ∨ t = .u64) (p : Profile) :
    InEveryCall (ctuCall t p) (ctuCallStores t p) CTUParams.default (ReadsNear t (·.cv)) ∧
    InEveryCall (ctudCall t p) (ctudCallStores t p) CTUDParams.default (ReadsNear t (·.cv)) ∧
    InEveryCall TON.call TON.callStores TimerParams.default (ReadsNear .i64 (·.elapsed_time)) ∧
    InEveryCall TOF.call TOF.callStores TimerParams.default (ReadsNear .i64 (·.elapsed_time)) := by
  obtain ⟨a, -, c, -, d, e⟩ := C149_order_partial t p CTUParams.default CTDParams.default CTUDParams.default TimerParams.default
  exact ⟨every_mono a (near_of_order ht), every_mono c (near_of_order ht), every_mono d (near_of_order (.inl rfl)),
    every_mono e (near_of_order (.inl rfl))⟩

/-- The bound is reached: between 2^32 - 1 and 2^32 the values 0 and 2^33 - 1 can be read. -/
example : ReadsAtOnce .i64 .low [4294967295, 4294967296] 0 ∧ ReadsAtOnce .i64 .high [4294967295, 4294967296] 8589934591 := by
  unfold ReadsAtOnce; decide

/-! ### Short presets -/

private theorem clock_left' {a b : List TimerIn} (hc : ClockOk (a ++ b)) : ClockOk a := by
  obtain ⟨c1, c2⟩ := hc
  simp only [readings, List.flatMap_append] at c1 c2
  exact ⟨(List.pairwise_append.1 c1).1, fun r hr => c2 r (List.mem_append_left _ hr)⟩

private theorem elapsed_pos {a b : List TimerIn} {x y : TimerIn} (hc : ClockOk (a ++ x :: b ++ [y])) : 0 ≤ elapsed1 x y := by
  obtain ⟨c1, -⟩ := hc
  simp only [readings, List.flatMap_append, List.flatMap_cons] at c1
  have : x.t1 ≤ y.t1 := (List.pairwise_append.1 c1).2.2 x.t1 (by simp) y.t1 (by simp)
  unfold elapsed1; omega

private theorem ton_short {h : List TimerIn} {s : TimerParams} (hc : ClockOk h) (hp : ∀ x ∈ h, 0 ≤ x.pt ∧ x.pt < 2 ^ 32) (hs : tonAfter h = .ok s) :
    0 ≤ s.elapsed_time ∧ s.elapsed_time < 2 ^ 32 := by
  rcases List.eq_nil_or_concat h with rfl | ⟨h', i, rfl⟩
  · cases hs; decide
  · rw [List.concat_eq_append] at *
    have hi := hp i (by simp)
    obtain ⟨s1, e, b1, b2⟩ := C12_ton_elapsed_bounds h' i hc (fun x hx => by
      rw [List.mem_singleton] at hx; subst hx; omega)
    rw [hs] at e
    cases e
    omega

private theorem tof_short {h : List TimerIn} {s : TimerParams} (hc : ClockOk h) (hp : ∀ x ∈ h, 0 ≤ x.pt ∧ x.pt < 2 ^ 32) (hs : tofAfter h = .ok s) :
    0 ≤ s.elapsed_time ∧ s.elapsed_time < 2 ^ 32 := by
  rcases List.eq_nil_or_concat h with rfl | ⟨h', i, rfl⟩
  · cases hs; decide
  · rw [List.concat_eq_append] at *
    have hi := hp i (by simp)
    obtain ⟨s1, e, b1, b2⟩ := C13_tof_elapsed_time h' i hc
    rw [hs] at e
    cases e
    cases hin : i.input with
    | true => rw [b1 (.inl hin)]; decide
    | false =>
      rcases falseRun_exists h' with hh | hh | ⟨pre, first, run, hr⟩
      · rw [b1 (.inr (.inl hh))]; decide
      · rw [b1 (.inr (.inr hh))]; decide
      · rw [b2 hin pre first run hr]
        have := elapsed_pos (a := pre) (b := run) (x := first) (y := i) (by rw [← hr.1]; exact hc)
        omega

private theorem range_short {v : Int} (h : 0 ≤ v ∧ v < 2 ^ 32) : IntTy.i64.InRange v := by
  simp [IntTy.InRange, IntTy.lo, IntTy.hi, IntTy.i64]; omega

private theorem high_short {v : Int} (h : 0 ≤ v ∧ v < 2 ^ 32) : v / 2 ^ 32 = 0 := by omega

/-- What holds of **C174** for TON and TOF: with presets below 2^32 ns (4.29 s) ET is always read as it is before the call or after it. -/
theorem C174_short_partial (h : List TimerIn) (i : TimerIn) (hc : ClockOk (h ++ [i])) (hp : ∀ x ∈ h ++ [i], 0 ≤ x.pt ∧ x.pt < 2 ^ 32) (o : HalfFirst)
    (s s' : TimerParams) (ms : List TimerParams) :
    (tonAfter h = .ok s → TON.call s i = .ok s' → TON.callStores s i = .ok ms → ReadsBeforeOrAfter .i64 ReadsInHalves o (·.elapsed_time) ms s s') ∧
    (tofAfter h = .ok s → TOF.call s i = .ok s' → TOF.callStores s i = .ok ms → ReadsBeforeOrAfter .i64 ReadsInHalves o (·.elapsed_time) ms s s') := by
  obtain ⟨-, -, -, d, e⟩ := C174_same_high_partial .i64 (.inl rfl) .debug
  constructor
  · intro hs hs' hm
    have b1 := ton_short (clock_left' hc) (fun x hx => hp x (List.mem_append_left _ hx)) hs
    have b2 := ton_short hc hp (by unfold tonAfter at hs ⊢; rw [runFB_snoc_ok hs]; exact hs')
    exact d h s i s' ms hs hs' hm (range_short b1) (range_short b2) (by rw [high_short b1, high_short b2]) o
  · intro hs hs' hm
    have b1 := tof_short (clock_left' hc) (fun x hx => hp x (List.mem_append_left _ hx)) hs
    have b2 := tof_short hc hp (by unfold tofAfter at hs ⊢; rw [runFB_snoc_ok hs]; exact hs')
    exact e h s i s' ms hs hs' hm (range_short b1) (range_short b2) (by rw [high_short b1, high_short b2]) o

/-- A call that meets the hypotheses: one second into a delay of four seconds. -/
example : ClockOk [⟨true, 4000000000, 0, 0⟩, ⟨true, 4000000000, 1000000000, 1000000000⟩] ∧
    tonAfter [⟨true, 4000000000, 0, 0⟩] = .ok ⟨true, 4000000000, false, 0, ⟨true⟩, some 0⟩ ∧
    TON.call ⟨true, 4000000000, false, 0, ⟨true⟩, some 0⟩ ⟨true, 4000000000, 1000000000, 1000000000⟩ =
      .ok ⟨true, 4000000000, false, 1000000000, ⟨true⟩, some 0⟩ := ⟨by unfold ClockOk; decide, by decide, by decide⟩

/-! ### Reading the upper half twice -/

private theorem ton_mono (h mid : List TimerIn) (pt : Int) (hpt : 0 ≤ pt ∧ pt < 2 ^ 63) (hc : ClockOk (h ++ mid))
    (hm : ∀ x ∈ mid, x.input = true ∧ x.pt = pt) (i d : Nat) (hi : 0 < i) (hd : i + d ≤ mid.length) :
    ∃ s s', tonAfter (h ++ mid.take i) = .ok s ∧ tonAfter (h ++ mid.take (i + d)) = .ok s' ∧ 0 ≤ s.elapsed_time ∧
      s.elapsed_time ≤ s'.elapsed_time ∧ s'.elapsed_time ≤ pt := by
  have take_clock : ∀ n, ClockOk (h ++ mid.take n) := fun n => by
    have : ClockOk ((h ++ mid.take n) ++ mid.drop n) := by rw [List.append_assoc, List.take_append_drop]; exact hc
    exact clock_left' this
  have step : ∀ n, (hn : n < mid.length) → mid.take (n + 1) = mid.take n ++ [mid[n]] := fun n hn => by
    rw [List.take_add_one, List.getElem?_eq_getElem hn]; rfl
  induction d with
  | zero =>
    obtain ⟨n, rfl⟩ : ∃ n, i = n + 1 := ⟨i - 1, by omega⟩
    have hn : n < mid.length := by omega
    have ck := take_clock (n + 1)
    rw [step n hn, ← List.append_assoc] at ck
    have hx := hm mid[n] (List.getElem_mem hn)
    obtain ⟨s, hs, b1, b2⟩ := C12_ton_elapsed_bounds (h ++ mid.take n) mid[n] ck (fun x hx' => by
      rw [List.mem_singleton] at hx'; subst hx'; rw [hx.2]; exact hpt)
    rw [List.append_assoc, ← step n hn] at hs
    exact ⟨s, s, hs, hs, b1, Int.le_refl _, by rw [hx.2] at b2; exact b2⟩
  | succ d ih =>
    obtain ⟨s, s', hs, hs', b0, b1, b2⟩ := ih (by omega)
    obtain ⟨n, hn'⟩ : ∃ n, i + d = n + 1 := ⟨i + d - 1, by omega⟩
    have hn : n < mid.length := by omega
    have hn2 : n + 1 < mid.length := by omega
    have hx := hm mid[n] (List.getElem_mem hn)
    have hy := hm mid[n + 1] (List.getElem_mem hn2)
    have e2 : h ++ mid.take (n + 1 + 1) = h ++ mid.take n ++ [mid[n], mid[n + 1]] := by
      rw [step (n + 1) hn2, step n hn, List.append_assoc, List.append_assoc]; rfl
    have e1 : h ++ mid.take (n + 1) = h ++ mid.take n ++ [mid[n]] := by rw [step n hn]; simp
    have ck := take_clock (n + 1 + 1)
    rw [e2] at ck
    have pk : PresetOk [mid[n], mid[n + 1]] := fun x hx' => by
      simp only [List.mem_cons, List.not_mem_nil, or_false] at hx'
      rcases hx' with rfl | rfl
      · rw [hx.2]; exact hpt
      · rw [hy.2]; exact hpt
    obtain ⟨u, v, hu, hv, huv⟩ := C12_ton_elapsed_monotone (h ++ mid.take n) mid[n] mid[n + 1] ck hx.1 hy.1 (by rw [hx.2, hy.2]) pk
    rw [hn', e1, hu] at hs'
    cases hs'
    have ck1 := take_clock (n + 1 + 1)
    rw [step (n + 1) hn2, ← List.append_assoc] at ck1
    obtain ⟨w, hw, b3, b4⟩ := C12_ton_elapsed_bounds (h ++ mid.take (n + 1)) mid[n + 1] ck1 (fun x hx' => by
      rw [List.mem_singleton] at hx'; subst hx'; rw [hy.2]; exact hpt)
    rw [List.append_assoc, ← step (n + 1) hn2, e2, hv] at hw
    cases hw
    refine ⟨s, v, hs, ?_, b0, by omega, by rw [hy.2] at b4; exact b4⟩
    rw [show i + (d + 1) = n + 1 + 1 by omega, e2]
    exact hv

/-- What holds of **C174** for a task that does not interrupt the calls of a TON but is itself interrupted by them: it loads the upper half of ET, then
the lower half, then the upper half again, with any number of calls in between, all of them with IN = TRUE and the same PT. If the upper half was the same
both times, the value put together is the ET at the moment at which the lower half was loaded. -/
theorem C174_double_read_partial (h mid : List TimerIn) (pt : Int) (hpt : 0 ≤ pt ∧ pt < 2 ^ 63) (hc : ClockOk (h ++ mid))
    (hm : ∀ x ∈ mid, x.input = true ∧ x.pt = pt) (i j k : Nat) (hi : 0 < i) (hij : i ≤ j) (hjk : j ≤ k) (hk : k ≤ mid.length) :
    ∃ si sj sk, tonAfter (h ++ mid.take i) = .ok si ∧ tonAfter (h ++ mid.take j) = .ok sj ∧ tonAfter (h ++ mid.take k) = .ok sk ∧
      (highWord si.elapsed_time = highWord sk.elapsed_time →
        joinWords .i64 (lowWord sj.elapsed_time) (highWord si.elapsed_time) = sj.elapsed_time) := by
  obtain ⟨a, b, ha, hb, p1, p2, p3⟩ := ton_mono h mid pt hpt hc hm i (j - i) hi (by omega)
  obtain ⟨c, d, hc', hd, q1, q2, q3⟩ := ton_mono h mid pt hpt hc hm j (k - j) (by omega) (by omega)
  rw [show i + (j - i) = j by omega] at hb
  rw [show j + (k - j) = k by omega] at hd
  rw [hb] at hc'
  cases hc'
  refine ⟨a, b, d, ha, hb, hd, fun e => ?_⟩
  have e' : highWord a.elapsed_time = highWord b.elapsed_time := by
    unfold highWord at e ⊢; omega
  rw [e']
  exact join_words (.inl rfl) (by simp [IntTy.InRange, IntTy.lo, IntTy.hi, IntTy.i64]; omega)

/-- Without the second reading of the upper half the value may be wrong by 2^32 ns: upper half loaded at 4.294967295 s, lower half at 4.294967296 s. -/
example : joinWords .i64 (lowWord 4294967296) (highWord 4294967295) = 0 := by decide

/-- Two calls between which the upper half does not change. -/
example : ClockOk ([] ++ [⟨true, 9000000000, 0, 0⟩, ⟨true, 9000000000, 5000000000, 5000000000⟩, ⟨true, 9000000000, 6000000000, 6000000000⟩]) ∧
    highWord 5000000000 = highWord 6000000000 ∧ joinWords .i64 (lowWord 6000000000) (highWord 5000000000) = 6000000000 :=
  ⟨by unfold ClockOk; decide, by decide, by decide⟩

end Verif
