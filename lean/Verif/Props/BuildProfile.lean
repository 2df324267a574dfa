import Verif.Model.Bits
import Verif.Props.Scan
import Verif.Props.Counters
import Verif.Props.TimeText
import Verif.Proofs.Strings
import Verif.Proofs.Find
/-
C105: debug builds (overflow checks) and release builds (wrapping arithmetic) of the library give the same results.
-/
namespace Verif
open Spec Chrono

/-- The claim, for the functions whose code contains arithmetic that can overflow or a shift by a variable amount; the model of every
other function does not mention the build. Arguments have their declared types. -/
structure SameInBothBuilds : Prop where
  shl : ∀ (w : Nat) (x : BitVec w) (n : Nat), SHL .debug x n = SHL .release x n
  shr : ∀ (w : Nat) (x : BitVec w) (n : Nat), SHR .debug x n = SHR .release x n
  ctu : ∀ t, CounterTy t → ∀ h, runFB (ctuCall t .debug) CTUParams.default h = runFB (ctuCall t .release) CTUParams.default h
  ctd : ∀ t, CounterTy t → ∀ h : List CTDIn, (∀ x ∈ h, t.InRange x.pv) →
    runFB (ctdCall t .debug) CTDParams.default h = runFB (ctdCall t .release) CTDParams.default h
  ctud : ∀ t, CounterTy t → ∀ h : List CTUDIn, (∀ x ∈ h, t.InRange x.pv) →
    runFB (ctudCall t .debug) CTUDParams.default h = runFB (ctudCall t .release) CTUDParams.default h
  find : ∀ mem src2, mem.length < 2 ^ 31 → FIND__STRING .debug (some mem) src2 = FIND__STRING .release (some mem) src2
  findW : ∀ mem src2, mem.length < 2 ^ 31 → FIND__WSTRING .debug (some mem) src2 = FIND__WSTRING .release (some mem) src2
  mid : ∀ (ty : StrTy) mem l pos dest, mem.length < 2 ^ 63 → IntTy.i32.InRange l → IntTy.i32.InRange pos →
    mid .debug (codecOf ty) (some mem) l pos dest = mid .release (codecOf ty) (some mem) l pos dest
  delete : ∀ (ty : StrTy) src l pos dest, IntTy.i32.InRange l → IntTy.i32.InRange pos →
    delete .debug (codecOf ty) src l pos dest = delete .release (codecOf ty) src l pos dest
  replace : ∀ (ty : StrTy) a b l pos dest, IntTy.i32.InRange l → IntTy.i32.InRange pos →
    replace .debug (codecOf ty) a b l pos dest = replace .release (codecOf ty) a b l pos dest
  time : ∀ now, ClockReading now → TIME .debug now = TIME .release now

/-- **C105** is false of the code in four places: SHL(BYTE#1, 8) panics in a debug build and returns 1 in a release build, SHR likewise;
DELETE('ab', -1, 2) and REPLACE('ab', '', -1, 2) panic in a debug build and return 'aab' in a release build. -/
theorem C105_refuted :
    ¬ SameInBothBuilds ∧
    (SHL .debug 1#8 8 = .panic ∧ SHL .release 1#8 8 = .ok 1#8) ∧
    (SHR .debug 1#8 8 = .panic ∧ SHR .release 1#8 8 = .ok 1#8) ∧
    (delete .debug codec8 (some [97, 98, 0]) (-1) 2 (some (List.replicate 6 0)) = .panic ∧
      delete .release codec8 (some [97, 98, 0]) (-1) 2 (some (List.replicate 6 0)) = .ok [97, 97, 98, 0, 0, 0]) ∧
    (replace .debug codec8 (some [97, 98, 0]) (some [0]) (-1) 2 (some (List.replicate 6 0)) = .panic ∧
      replace .release codec8 (some [97, 98, 0]) (some [0]) (-1) 2 (some (List.replicate 6 0)) = .ok [97, 97, 98, 0, 0, 0]) := by
  refine ⟨fun h => ?_, by decide, by decide, by decide +kernel, by decide +kernel⟩
  exact absurd (h.shl 8 1#8 8) (by decide)

private theorem arith_ok {t : IntTy} {x : Int} (h : t.InRange x) (p : Profile) : t.arith p x = .ok x := if_pos h

/-! ### Shifts -/

/-- **C105**, shifts: the builds agree as long as the count is below the width. -/
theorem C105_shift_partial {w : Nat} (x : BitVec w) (n : Nat) (h : n < w) :
    SHL .debug x n = SHL .release x n ∧ SHR .debug x n = SHR .release x n := by
  simp [SHL, SHR, shiftCount, h]

example : (7 : Nat) < 8 ∧ SHL .debug 3#8 7 = .ok 128#8 := by decide

/-! ### Counters -/

private theorem ctu_profile {t : IntTy} (s : CTUParams) (i : CTUIn) (hs : t.InRange s.cv) :
    ctuCall t .debug s i = ctuCall t .release s i := by
  obtain ⟨cu, r, pv⟩ := i
  cases r
  · rw [ctu_run, ctu_run]
    split
    · rename_i hc
      simp only [Bool.and_eq_true, decide_eq_true_eq] at hc
      have hr : t.InRange (s.cv + 1) := ⟨by have := hs.1; omega, by have := hc.2; omega⟩
      unfold CTUParams.inc
      rw [arith_ok hr, arith_ok hr]
    · rfl
  · rfl

private theorem ctd_profile {t : IntTy} (s : CTDParams) (i : CTDIn) (hs : t.InRange s.cv) :
    ctdCall t .debug s i = ctdCall t .release s i := by
  obtain ⟨cd, ld, pv⟩ := i
  cases ld
  · rw [ctd_run, ctd_run]
    split
    · rename_i hc
      simp only [Bool.and_eq_true, decide_eq_true_eq] at hc
      have hr : t.InRange (s.cv - 1) := ⟨by have := hc.2; omega, by have := hs.2; omega⟩
      unfold CTDParams.dec
      rw [arith_ok hr, arith_ok hr]
    · rfl
  · rfl

private theorem ctud_profile {t : IntTy} (s : CTUDParams) (i : CTUDIn) (hs : t.InRange s.cv) :
    ctudCall t .debug s i = ctudCall t .release s i := by
  obtain ⟨cu, cd, r, ld, pv⟩ := i
  cases r
  · cases ld
    · rw [ctud_run, ctud_run]
      congr 1
      split
      · split
        · rename_i hc
          simp only [Bool.and_eq_true, decide_eq_true_eq] at hc
          have hr : t.InRange (s.cv + 1) := ⟨by have := hs.1; omega, by have := hc.2; omega⟩
          unfold CTUDParams.inc
          rw [arith_ok hr, arith_ok hr]
        · split
          · rename_i hc
            simp only [Bool.and_eq_true, decide_eq_true_eq] at hc
            have hr : t.InRange (s.cv - 1) := ⟨by have := hc.2; omega, by have := hs.2; omega⟩
            unfold CTUDParams.dec
            rw [arith_ok hr, arith_ok hr]
          · rfl
      · rfl
    · rfl
  · rfl

private theorem same_runs {S I : Type} {f g : S → I → Res S} {s₀ : S} (ok : S → Prop) (good : I → Prop)
    (H : ∀ s i, ok s → good i → f s i = g s i) (h : List I) (hg : ∀ i ∈ h, good i)
    (hr : ∀ pre x, pre ++ [x] <+: h → ∃ s, runFB g s₀ pre = .ok s ∧ ok s) :
    runFB f s₀ h = runFB g s₀ h := by
  revert hg hr
  refine snoc_induction ?_ ?_ h
  · intro _ _; rfl
  · intro h i ih hg hr
    have e := ih (fun x hx => hg x (by simp [hx])) (fun pre x hp => hr pre x (hp.trans (List.prefix_append _ _)))
    obtain ⟨s, hs, hok⟩ := hr h i (List.prefix_refl _)
    rw [runFB_append, runFB_append, e, hs, Res.bind_ok, Res.bind_ok, runFB_cons, runFB_cons,
      H s i hok (hg i (by simp))]
    rfl

/-- **C105**, counters: all counters, over every history whose presets have the counter's type. -/
theorem C105_counters {t : IntTy} (ht : CounterTy t) :
    (∀ h, runFB (ctuCall t .debug) CTUParams.default h = runFB (ctuCall t .release) CTUParams.default h) ∧
    (∀ h : List CTDIn, (∀ x ∈ h, t.InRange x.pv) →
      runFB (ctdCall t .debug) CTDParams.default h = runFB (ctdCall t .release) CTDParams.default h) ∧
    (∀ h : List CTUDIn, (∀ x ∈ h, t.InRange x.pv) →
      runFB (ctudCall t .debug) CTUDParams.default h = runFB (ctudCall t .release) CTUDParams.default h) := by
  have hz : t.InRange 0 := by rcases ht with rfl | rfl | rfl | rfl | rfl <;> decide
  refine ⟨fun h => ?_, fun h hp => ?_, fun h hp => ?_⟩
  · refine same_runs (fun s => t.InRange s.cv) (fun _ => True) (fun s i hs _ => ctu_profile s i hs) h (by simp) ?_
    intro pre x _
    rcases snoc_cases pre with rfl | ⟨pre, y, rfl⟩
    · exact ⟨_, rfl, hz⟩
    · obtain ⟨s, h1, h2, -⟩ := C07_ctu_q_and_no_overflow ht .release pre y
      exact ⟨s, h1, h2⟩
  · refine same_runs (fun s => t.InRange s.cv) (fun _ => True) (fun s i hs _ => ctd_profile s i hs) h (by simp) ?_
    intro pre x hx
    have hpre : ∀ y ∈ pre, t.InRange y.pv := fun y hy => hp y (hx.subset (by simp [hy]))
    by_cases hn : pre = []
    · subst hn; exact ⟨_, rfl, hz⟩
    · obtain ⟨a, b, rfl, h1, h2⟩ := exists_last_split (fun x : CTDIn => x.ld) pre
      obtain ⟨s, e1, e2, -⟩ := C08_ctd_counts_down ht .release a b hpre h1 h2 hn
      exact ⟨s, e1, e2⟩
  · refine same_runs (fun s => t.InRange s.cv) (fun _ => True) (fun s i hs _ => ctud_profile s i hs) h (by simp) ?_
    intro pre x hx
    have hpre : ∀ y ∈ pre, t.InRange y.pv := fun y hy => hp y (hx.subset (by simp [hy]))
    rcases snoc_cases pre with rfl | ⟨pre, y, rfl⟩
    · exact ⟨_, rfl, hz⟩
    · obtain ⟨s, e1, e2, -⟩ := C09_ctud_net_edges ht .release pre y hpre
      exact ⟨s, e1, e2⟩

/-- At the upper limit, where `cv + 1` would overflow. -/
example : runFB (ctudCall .i16 .debug) CTUDParams.default [⟨false, false, false, true, 32767⟩, ⟨true, false, false, false, 0⟩] =
    runFB (ctudCall .i16 .release) CTUDParams.default [⟨false, false, false, true, 32767⟩, ⟨true, false, false, false, 0⟩] ∧
    runFB (ctudCall .i16 .debug) CTUDParams.default [⟨false, false, false, true, 32767⟩, ⟨true, false, false, false, 0⟩] =
      .ok ⟨true, false, false, false, 0, true, false, 32767, ⟨true⟩, ⟨false⟩⟩ := by decide

/-! ### Strings -/

private theorem chars_length : ∀ n (l : List Nat), l.length = n → (chars l).length ≤ l.length := by
  intro n
  induction n using Nat.strongRecOn with
  | _ n ih =>
    intro l hl
    unfold chars
    split
    · simp
    · rename_i x l
      have ih' : ∀ m : List Nat, m.length ≤ l.length → (chars m).length ≤ m.length :=
        fun m hm => ih m.length (by simp at hl; omega) m rfl
      split
      · have := ih' l (by omega); simp; omega
      · split
        · simp
        · split
          · rename_i l _
            have := ih' l (by simp); simp; omega
          · split
            · simp
            · split
              · rename_i l _
                have := ih' l (by simp; omega); simp; omega
              · split
                · simp
                · rename_i l
                  have := ih' l (by simp; omega); simp; omega

private theorem decode16_length : ∀ n (l : List Nat), l.length = n → (decode_utf16 l).length ≤ l.length := by
  intro n
  induction n using Nat.strongRecOn with
  | _ n ih =>
    intro l hl
    unfold decode_utf16
    split
    · simp
    · rename_i x l
      have ih' : ∀ m : List Nat, m.length ≤ l.length → (decode_utf16 m).length ≤ m.length :=
        fun m hm => ih m.length (by simp at hl; omega) m rfl
      split
      · have := ih' l (by omega); simp; omega
      · split
        · have := ih' l (by omega); simp; omega
        · split
          · simp
          · split
            · have := ih' _ (Nat.le_refl _); simp at this ⊢; omega
            · rename_i l _
              have := ih' l (by simp); simp; omega

/-- The number of characters is at most the number of units. -/
private theorem decodeSlice_length (ty : StrTy) (s : List Nat) (items : List (codecOf ty).Item)
    (h : (codecOf ty).decodeSlice s = .ok items) : items.length ≤ s.length := by
  cases ty
  · simp only [codecOf, codec8] at h
    split at h
    · have := Res.ok.inj h; subst this; exact chars_length _ _ rfl
    · cases h
  · have := Res.ok.inj h; subst this; exact decode16_length _ _ rfl

theorem decode_items_length (ty : StrTy) (mem : List Nat) (items : List (codecOf ty).Item)
    (h : (codecOf ty).decode (some mem) = .ok items) : items.length ≤ mem.length := by
  unfold Codec.decode at h
  rw [Res.bind_eq_ok] at h
  obtain ⟨s, hs, h⟩ := h
  have h1 := decodeSlice_length ty s items h
  unfold ptr_to_slice at hs
  rw [Res.bind_eq_ok] at hs
  obtain ⟨n, _, hs⟩ := hs
  have := Res.ok.inj hs; subst this
  rw [List.length_take] at h1
  omega

private theorem u64_range (x : Int) : IntTy.u64.InRange x ↔ 0 ≤ x ∧ x < 2 ^ 64 := by
  unfold IntTy.InRange IntTy.lo IntTy.hi IntTy.u64
  simp only [Bool.false_eq_true, if_false]
  norm_num
  omega

private theorem i32_range (x : Int) : IntTy.i32.InRange x ↔ -2 ^ 31 ≤ x ∧ x < 2 ^ 31 := by
  unfold IntTy.InRange IntTy.lo IntTy.hi IntTy.i32
  simp only [if_true]
  norm_num
  omega

/-- **C105**, DELETE and REPLACE: the builds agree unless the length is negative and its absolute value at most the number of
characters in front of the position. -/
theorem C105_delete_replace_partial (k : Codec) (src repl dest : Ptr) (l pos : Int) (hl : IntTy.i32.InRange l)
    (hp : IntTy.i32.InRange pos) (h : 0 ≤ l ∨ pos - 1 < -l) :
    delete .debug k src l pos dest = delete .release k src l pos dest ∧
    replace .debug k src repl l pos dest = replace .release k src repl l pos dest := by
  rw [i32_range] at hl hp
  have sum : 1 ≤ pos → IntTy.u64.InRange ((asUsize l : Int) + ((asUsize pos - 1 : Nat) : Int)) := by
    intro h1
    rw [u64_range, asUsize_nonneg (x := pos) (by omega) (by omega)]
    by_cases h0 : 0 ≤ l
    · rw [asUsize_nonneg h0 (by omega)]; omega
    · rw [asUsize_neg (by omega) (by omega)]; omega
  have hpos : 1 ≤ pos → asUsize (pos - 1) = asUsize pos - 1 := by
    intro h1
    rw [asUsize_nonneg (by omega) (by omega), asUsize_nonneg (by omega) (by omega)]; omega
  constructor
  · unfold delete
    congr 1; funext items
    dsimp only
    split
    · rfl
    · rename_i hc
      simp only [Bool.or_eq_true, decide_eq_true_eq, not_or, not_lt] at hc
      rw [arith_ok (sum hc.1), arith_ok (sum hc.1)]
  · unfold replace
    congr 1; funext items
    dsimp only
    split
    · rfl
    · rename_i hc
      simp only [Bool.or_eq_true, decide_eq_true_eq, not_or, not_lt] at hc
      rw [hpos hc.1, arith_ok (sum hc.1), arith_ok (sum hc.1)]

private theorem mid_profile (ty : StrTy) (mem : List Nat) (dest : Ptr) (l pos : Int) (hl : -2 ^ 31 ≤ l ∧ l < 2 ^ 31)
    (hm : mem.length < 2 ^ 63) :
    mid .debug (codecOf ty) (some mem) l pos dest = mid .release (codecOf ty) (some mem) l pos dest := by
  unfold mid
  split
  · rfl
  · rename_i hneg
    simp only [not_lt] at hneg
    cases hd : (codecOf ty).decode (some mem) with
    | panic => simp only [Res.bind_panic]
    | ub => simp only [Res.bind_ub]
    | ok items =>
      have hlen := decode_items_length ty mem items hd
      simp only [Res.bind_ok]
      split
      · rfl
      · rename_i hc
        simp only [Bool.or_eq_true, decide_eq_true_eq, not_or, not_lt] at hc
        have hs : IntTy.u64.InRange ((asUsize l : Int) + ((asUsize pos - 1 : Nat) : Int)) := by
          rw [u64_range, asUsize_nonneg hneg (by omega)]
          have : asUsize pos ≤ mem.length := by omega
          omega
        rw [arith_ok hs, arith_ok hs]

private theorem slice_le {mem hay : List Nat} (h : ptr_to_slice (some mem) = .ok hay) : hay.length ≤ mem.length := by
  unfold ptr_to_slice at h
  rw [Res.bind_eq_ok] at h
  obtain ⟨n, _, hs⟩ := h
  have := Res.ok.inj hs; subst this
  rw [List.length_take]
  omega

private theorem find_range {mem hay needle : List Nat} {idx n : Nat} (hm : mem.length < 2147483648)
    (hh : hay.length ≤ mem.length)
    (hc : ¬ (decide (needle.length > hay.length) || hay.isEmpty || needle.isEmpty) = true)
    (hpos : position needle hay = some idx) (hn : n ≤ (hay.take idx).length) (p : Profile) :
    IntTy.i32.arith p (asI32 n + 1) = .ok (n + 1) := by
  have h1 := (position_some hpos).1.length_le
  rw [List.length_drop] at h1
  rw [List.length_take] at hn
  simp only [Bool.or_eq_true, decide_eq_true_eq, List.isEmpty_iff, not_or] at hc
  have h2 : 0 < needle.length := List.length_pos_iff.2 hc.2
  rw [asI32_small (by omega)]
  exact arith_ok ((i32_range _).2 (by omega)) p

private theorem find_profile (mem : List Nat) (src2 : Ptr) (hm : mem.length < 2147483648) :
    FIND__STRING .debug (some mem) src2 = FIND__STRING .release (some mem) src2 := by
  unfold FIND__STRING
  cases hs : ptr_to_slice (some mem) with
  | panic => simp only [Res.bind_panic]
  | ub => simp only [Res.bind_ub]
  | ok hay =>
    rw [Res.bind_ok, Res.bind_ok]
    refine congrArg (fun f => ptr_to_slice src2 >>= f) (funext fun needle => ?_)
    by_cases hc : (decide (needle.length > hay.length) || hay.isEmpty || needle.isEmpty) = true
    · rw [if_pos hc, if_pos hc]
    · rw [if_neg hc, if_neg hc]
      cases hpos : position needle hay with
      | none => rfl
      | some idx =>
        dsimp only
        cases hd : codec8.decodeSlice (hay.take idx) with
        | panic => simp only [Res.bind_panic]
        | ub => simp only [Res.bind_ub]
        | ok items =>
          have hl : List.length (α := codec8.Item) items ≤ (hay.take idx).length :=
            decodeSlice_length .STRING _ items hd
          rw [Res.bind_ok, Res.bind_ok, find_range hm (slice_le hs) hc hpos hl,
            find_range hm (slice_le hs) hc hpos hl]

private theorem findW_profile (mem : List Nat) (src2 : Ptr) (hm : mem.length < 2147483648) :
    FIND__WSTRING .debug (some mem) src2 = FIND__WSTRING .release (some mem) src2 := by
  unfold FIND__WSTRING
  cases hs : ptr_to_slice (some mem) with
  | panic => simp only [Res.bind_panic]
  | ub => simp only [Res.bind_ub]
  | ok hay =>
    rw [Res.bind_ok, Res.bind_ok]
    refine congrArg (fun f => ptr_to_slice src2 >>= f) (funext fun needle => ?_)
    by_cases hc : (decide (needle.length > hay.length) || hay.isEmpty || needle.isEmpty) = true
    · rw [if_pos hc, if_pos hc]
    · rw [if_neg hc, if_neg hc]
      cases hpos : position needle hay with
      | none => rfl
      | some idx =>
        dsimp only
        cases hd : codec16.decodeSlice (hay.take idx) with
        | panic => simp only [Res.bind_panic]
        | ub => simp only [Res.bind_ub]
        | ok items =>
          have hl : List.length (α := codec16.Item) items ≤ (hay.take idx).length :=
            decodeSlice_length .WSTRING _ items hd
          rw [Res.bind_ok, Res.bind_ok, find_range hm (slice_le hs) hc hpos hl,
            find_range hm (slice_le hs) hc hpos hl]

/-- **C105**, MID and FIND on STRING and WSTRING: the builds agree for all arguments, as no allocation has 2^63 bytes and FIND's result
fits for strings below 2^31 units. -/
theorem C105_mid_find (ty : StrTy) (mem : List Nat) (src2 dest : Ptr) (l pos : Int) (hl : IntTy.i32.InRange l)
    (_hp : IntTy.i32.InRange pos) :
    (mem.length < 2 ^ 63 → mid .debug (codecOf ty) (some mem) l pos dest = mid .release (codecOf ty) (some mem) l pos dest) ∧
    (mem.length < 2 ^ 31 → FIND__STRING .debug (some mem) src2 = FIND__STRING .release (some mem) src2 ∧
      FIND__WSTRING .debug (some mem) src2 = FIND__WSTRING .release (some mem) src2) :=
  ⟨mid_profile ty mem dest l pos ((i32_range l).1 hl), fun h => ⟨find_profile mem src2 (by omega), findW_profile mem src2 (by omega)⟩⟩

example : mid .debug codec8 (some [97, 98, 99, 0]) 2 (-5) (some [0, 0, 0]) = .panic ∧
    mid .release codec8 (some [97, 98, 99, 0]) 2 2 (some [7, 7, 7]) = .ok [98, 99, 0] ∧
    FIND__STRING .release (some [97, 98, 99, 0]) (some [99, 0]) = .ok 3 := by decide +kernel

/-- **C105**, TIME(). -/
theorem C105_time (now : NaiveTime) (h : ClockReading now) : TIME .debug now = TIME .release now := by
  rw [(C67_time .debug now h).1, (C67_time .release now h).1]

end Verif
