import Verif.Props.Counters
import Verif.Props.Scan
/-
C154: a store for `N` things whose doors are controlled by a CTUD,

  put := in AND NOT ctud.QU;
  take := out AND NOT ctud.QD;
  ctud(CU := put, CD := take, R := FALSE, LD := FALSE, PV := N);

Each rising edge of `put` brings one thing into the store, each rising edge of `take` takes one out.
-/
namespace Verif
open Spec

/-! ### Specification -/

/-- The store itself: how many things are in it (less than none if things were taken out that were not there), and the signals of the two doors. -/
structure Spec.Store where
  things : Int
  put : Bool
  take : Bool
  deriving DecidableEq

/-- What the signals of the doors do to the store. -/
def Spec.Store.next (w : Store) (put take : Bool) : Store :=
  ⟨w.things + (if put && !w.put then 1 else 0) - (if take && !w.take then 1 else 0), put, take⟩

/-- One scan of the program with the signals `in` and `out` (a call of `CTUD`, src/counters.rs:289-310), and the store. -/
def storeScan (t : IntTy) (p : Profile) (N : Int) (s : CTUDParams × Store) (x : Bool × Bool) : Res (CTUDParams × Store) := do
  let put := x.1 && !s.1.qu
  let take := x.2 && !s.1.qd
  let c ← ctudCall t p s.1 ⟨put, take, false, false, N⟩
  pure (c, s.2.next put take)

/-- The program and the store after the scans `h`, from the start with an empty store. -/
def stored (t : IntTy) (p : Profile) (N : Int) (h : List (Bool × Bool)) : Res (CTUDParams × Store) :=
  runFB (storeScan t p N) (CTUDParams.default, ⟨0, false, false⟩) h

/-- The program does not end, the store never has less than none or more than `N` things, and CV is their number. -/
def Spec.Controlled (t : IntTy) (p : Profile) (N : Int) (h : List (Bool × Bool)) : Prop :=
  ∃ s, stored t p N h = .ok s ∧ 0 ≤ s.2.things ∧ s.2.things ≤ N ∧ s.1.cv = s.2.things

/-- **C154 is false of the code** in the first scan: QD is FALSE although the store is empty. With unsigned counters CV stays 0 and is wrong, with the others it is negative. -/
theorem C154_refuted (t : IntTy) (ht : CounterTy t) (p : Profile) : ¬ ∀ N, 1 ≤ N → N ≤ t.hi → ∀ h, Controlled t p N h := by
  intro H
  obtain ⟨s, hs, h0, _⟩ := H 1 (by decide) (by rcases ht with rfl | rfl | rfl | rfl | rfl <;> decide) [(false, true)]
  have : (stored t p 1 [(false, true)]).bind (fun s => .ok s.2.things) = .ok (-1) := by
    rcases ht with rfl | rfl | rfl | rfl | rfl <;> cases p <;> decide
  rw [hs] at this
  have : s.2.things = -1 := Res.ok.inj this
  omega

private structure Inv (N : Int) (s : CTUDParams × Store) : Prop where
  lower : 0 ≤ s.2.things
  upper : s.2.things ≤ N
  cv : s.1.cv = s.2.things
  up : s.1.internal_up.current_value = s.2.put
  down : s.1.internal_down.current_value = s.2.take

private theorem store_call {t : IntTy} (ht : CounterTy t) (p : Profile) {N : Int} (hN : N ≤ t.hi) {c : CTUDParams} {w : Store} (hi : Inv N (c, w)) (put take : Bool)
    (hput : put = true → w.things < N) (htake : take = true → 0 < w.things) :
    ∃ c', ctudCall t p c ⟨put, take, false, false, N⟩ = .ok c' ∧ Inv N (c', w.next put take) ∧ c'.qu = decide ((w.next put take).things ≥ N) ∧
      c'.qd = decide ((w.next put take).things ≤ 0) := by
  have hlo : t.lo ≤ 0 := by rcases ht with rfl | rfl | rfl | rfl | rfl <;> decide
  obtain ⟨things, wp, wt⟩ := w
  obtain ⟨cu, cd, r, ld, pv, qu, qd, cv, ⟨iu⟩, ⟨id⟩⟩ := c
  obtain ⟨h1, h2, h3, h4, h5⟩ := hi
  simp only at h1 h2 h3 h4 h5 hput htake
  subst h3 h4 h5
  have up : cv < N → t.arith p (cv + 1) = .ok (cv + 1) := fun h => if_pos ⟨by omega, by omega⟩
  have down : 0 < cv → t.arith p (cv - 1) = .ok (cv - 1) := fun h => if_pos ⟨by omega, by omega⟩
  cases put <;> cases take <;> cases iu <;> cases id <;>
    simp [ctudCall, ctud, CTUDParams.cu_r_edge, CTUDParams.cd_r_edge, Signal.rising_edge, Store.next, CTUDParams.update_qu, CTUDParams.update_qd, CTUDParams.inc, CTUDParams.dec] at hput htake ⊢ <;>
    first
    | exact ⟨h1, h2, rfl, rfl, rfl⟩
    | (rw [if_pos (by omega), down htake]
       exact ⟨_, rfl, ⟨by show 0 ≤ cv - 1; omega, by show cv - 1 ≤ N; omega, rfl, rfl, rfl⟩, rfl, rfl⟩)
    | (rw [if_pos (by omega), up hput]
       exact ⟨_, rfl, ⟨by show 0 ≤ cv + 1; omega, by show cv + 1 ≤ N; omega, rfl, rfl, rfl⟩, rfl, rfl⟩)
    | (rw [if_pos (by omega), down htake]
       exact ⟨_, rfl, ⟨by show 0 ≤ cv - 1; omega, by show cv - 1 ≤ N; omega, rfl, rfl, rfl⟩, by simp, by simp⟩)
    | (rw [if_pos (by omega), up hput]
       exact ⟨_, rfl, ⟨by show 0 ≤ cv + 1; omega, by show cv + 1 ≤ N; omega, rfl, rfl, rfl⟩, by simp, by simp⟩)

/-- After the first scan. -/
private structure Inv' (N : Int) (s : CTUDParams × Store) : Prop extends Inv N s where
  qu : s.1.qu = decide (s.2.things ≥ N)
  qd : s.1.qd = decide (s.2.things ≤ 0)

private theorem store_scan {t : IntTy} (ht : CounterTy t) (p : Profile) {N : Int} (hN : N ≤ t.hi) {s : CTUDParams × Store} (hi : Inv' N s) (x : Bool × Bool) :
    ∃ s', storeScan t p N s x = .ok s' ∧ Inv' N s' ∧ s'.2 = s.2.next (x.1 && decide (s.2.things < N)) (x.2 && decide (0 < s.2.things)) := by
  have e1 : (!s.1.qu) = decide (s.2.things < N) := by rw [hi.qu, ← decide_not]; congr 1; simp
  have e2 : (!s.1.qd) = decide (0 < s.2.things) := by rw [hi.qd, ← decide_not]; congr 1; simp
  obtain ⟨c', h1, h2, h3, h4⟩ := store_call ht p hN hi.toInv (x.1 && decide (s.2.things < N)) (x.2 && decide (0 < s.2.things)) (by simp) (by simp)
  refine ⟨_, ?_, ⟨h2, h3, h4⟩, rfl⟩
  simp only [storeScan, e1, e2, h1, Res.bind_ok]
  rfl

private theorem store_first {t : IntTy} (ht : CounterTy t) (p : Profile) {N : Int} (h1 : 1 ≤ N) (hN : N ≤ t.hi) (x : Bool) :
    ∃ s, stored t p N [(x, false)] = .ok s ∧ Inv' N s ∧ s.2 = ⟨if x then 1 else 0, x, false⟩ := by
  obtain ⟨c', h2, h3, h4, h5⟩ := store_call (c := CTUDParams.default) (w := ⟨0, false, false⟩) ht p hN ⟨Int.le_refl 0, by show (0 : Int) ≤ N; omega, rfl, rfl, rfl⟩ x false (fun _ => by show (0 : Int) < N; omega) (by simp)
  refine ⟨(c', _), ?_, ⟨h3, h4, h5⟩, by cases x <;> rfl⟩
  simp only [stored, runFB_cons, storeScan]
  rw [show (x && !CTUDParams.default.qu) = x by cases x <;> rfl, show (false && !CTUDParams.default.qd) = false from rfl, h2]
  rfl

private theorem store_run {t : IntTy} (ht : CounterTy t) (p : Profile) {N : Int} (h1 : 1 ≤ N) (hN : N ≤ t.hi) (x : Bool) (h : List (Bool × Bool)) :
    ∃ s, stored t p N ((x, false) :: h) = .ok s ∧ Inv' N s := by
  obtain ⟨s, hs, hi, _⟩ := store_first ht p h1 hN x
  have : ∀ (h : List (Bool × Bool)) (s : CTUDParams × Store), Inv' N s → ∃ s', runFB (storeScan t p N) s h = .ok s' ∧ Inv' N s' := by
    intro h
    induction h with
    | nil => exact fun s hi => ⟨s, rfl, hi⟩
    | cons y h ih =>
      intro s hi
      obtain ⟨s', h1, h2, _⟩ := store_scan ht p hN hi y
      obtain ⟨s'', h3, h4⟩ := ih s' h2
      exact ⟨s'', by rw [runFB_cons, h1, Res.bind_ok, h3], h4⟩
  obtain ⟨s', h3, h4⟩ := this h s hi
  exact ⟨s', by rw [stored, show (x, false) :: h = [(x, false)] ++ h from rfl, runFB_append, ← stored, hs]; exact h3, h4⟩

/-- The claim for all signals, if nothing is to be taken out in the first scan. -/
theorem C154_partial (t : IntTy) (ht : CounterTy t) (p : Profile) (N : Int) (h1 : 1 ≤ N) (hN : N ≤ t.hi) (x : Bool) (h : List (Bool × Bool)) : Controlled t p N ((x, false) :: h) := by
  obtain ⟨s, hs, hi⟩ := store_run ht p h1 hN x h
  exact ⟨s, hs, hi.lower, hi.upper, hi.cv⟩

/-- What the doors do in any scan but the first: a thing is let in if one is to come and there is room, and let out if one is to go and there is one. -/
theorem C154_doors_partial (t : IntTy) (ht : CounterTy t) (p : Profile) (N : Int) (h1 : 1 ≤ N) (hN : N ≤ t.hi) (x : Bool) (h : List (Bool × Bool)) (inn out : Bool) :
    ∃ s s', stored t p N ((x, false) :: h) = .ok s ∧ stored t p N ((x, false) :: h ++ [(inn, out)]) = .ok s' ∧
      s'.2 = s.2.next (inn && decide (s.2.things < N)) (out && decide (0 < s.2.things)) := by
  obtain ⟨s, hs, hi⟩ := store_run ht p h1 hN x h
  obtain ⟨s', h2, _, h3⟩ := store_scan ht p hN hi (inn, out)
  refine ⟨s, s', hs, ?_, h3⟩
  rw [stored, runFB_append, ← stored, hs, Res.bind_ok, runFB_cons, h2]
  rfl

/-- A store for two: three things come, with a pause between them; the third is let in when one has been taken out. -/
example : ((stored .i16 .debug 2 [(true, false), (false, false), (true, false), (false, false), (true, false)]).bind fun s => .ok s.2) = .ok ⟨2, false, false⟩ ∧
    ((stored .i16 .debug 2 [(true, false), (false, false), (true, false), (false, false), (true, false), (true, true), (true, false)]).bind fun s => .ok s.2) = .ok ⟨2, true, false⟩ := by
  decide

/-- With room for none (`N = 0`) the first scan lets a thing in, as QU is FALSE before it. -/
example : ((stored .i16 .debug 0 [(true, false)]).bind fun s => .ok s.2.things) = .ok 1 := by decide

end Verif
