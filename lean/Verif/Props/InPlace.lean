import Verif.Model.InPlace
import Verif.Proofs.Find
import Verif.Props.Strings
/-
C143: the functions that write a string, when the destination is one of the arguments.
-/
namespace Verif
open Spec

/-- One step of the decoder a string type is read with. -/
def nextOf : (ty : StrTy) → List Nat → Option ((codecOf ty).Item × Nat)
  | .STRING => next8
  | .WSTRING => next16

/-- The decoder a string type is read with. -/
def lazyOf (ty : StrTy) : LazyCodec := ⟨codecOf ty, nextOf ty⟩

example : lazyOf .STRING = lazy8 ∧ lazyOf .WSTRING = lazy16 := ⟨rfl, rfl⟩

/-! ### One step of the decoders -/

private theorem next8_char (c : Char) (l : List Nat) : next8 (utf8Char c ++ l) = some (c, (utf8Char c).length) := by
  have hc := char_bounds c
  have hn := ofNat_toNat c
  unfold utf8Char
  simp only
  generalize c.toNat = n at hc hn
  by_cases h1 : n < 0x80
  · rw [if_pos h1, List.singleton_append, next8.eq_def]; dsimp only; rw [if_pos (by omega), hn]; rfl
  rw [if_neg h1]
  by_cases h2 : n < 0x800
  · rw [if_pos h2]
    simp only [List.cons_append, List.nil_append]
    rw [next8.eq_def]; dsimp only
    rw [if_neg (by omega)]
    rw [if_pos (by omega), and_1F, and_3F, shl_or_6 _ _ (by omega), ← hn]
    congr 3; omega
  rw [if_neg h2]
  by_cases h3 : n < 0x10000
  · rw [if_pos h3]
    simp only [List.cons_append, List.nil_append]
    rw [next8.eq_def]; dsimp only
    rw [if_neg (by omega)]
    rw [if_neg (by omega), if_pos (by omega), and_1F, and_3F, and_3F, shl_or_6 _ _ (by omega),
      shl_or_12 _ _ (by omega), ← hn]
    congr 3; omega
  · rw [if_neg h3]
    simp only [List.cons_append, List.nil_append]
    rw [next8.eq_def]; dsimp only
    rw [if_neg (by omega)]
    rw [if_neg (by omega), if_neg (by omega), and_1F, and_3F, and_3F, and_3F, and_07,
      shl_or_6 _ _ (by omega), shl_or_6 _ _ (by omega), shl_or_18 _ _ (by omega), ← hn]
    congr 3; omega

private theorem next16_char (c : Char) (l : List Nat) : next16 (utf16Char c ++ l) = some (some c, (utf16Char c).length) := by
  have hc := char_bounds c
  have hn := ofNat_toNat c
  unfold utf16Char
  simp only
  generalize c.toNat = n at hc hn
  by_cases h1 : n < 0x10000
  · rw [if_pos h1, List.singleton_append, next16.eq_def]; dsimp only
    rw [if_pos ((surrogate_test n h1).2 (by omega)), hn]; rfl
  · rw [if_neg h1]
    simp only [List.cons_append, List.nil_append]
    rw [next16.eq_def]; dsimp only
    rw [if_neg (fun h => by have := (surrogate_test _ (by omega)).1 h; omega), if_neg (by omega)]
    rw [if_neg (by simp; omega), and_3FF, and_3FF, shl_or_10 _ _ (by omega), ← hn]
    congr 4; omega

private theorem chars_next (l : List Nat) : chars l = match next8 l with | none => [] | some (c, n) => c :: chars (l.drop n) := by
  cases l with
  | nil => rw [chars, next8]
  | cons x l =>
    rw [chars.eq_def, next8.eq_def]
    dsimp only
    split
    · rfl
    · cases l with
      | nil => rfl
      | cons y l =>
        dsimp only
        split
        · rfl
        · cases l with
          | nil => rfl
          | cons z l =>
            dsimp only
            split
            · rfl
            · cases l <;> rfl

private theorem decode_utf16_next (l : List Nat) :
    decode_utf16 l = match next16 l with | none => [] | some (c, n) => c :: decode_utf16 (l.drop n) := by
  cases l with
  | nil => rw [decode_utf16, next16]
  | cons u l =>
    rw [decode_utf16.eq_def, next16.eq_def]
    dsimp only
    split
    · rfl
    · split
      · rfl
      · cases l with
        | nil => simp [decode_utf16]
        | cons u2 l => 
          dsimp only
          split
          · rfl
          · rfl

private theorem next8_pos {l : List Nat} {c : Char} {n : Nat} (h : next8 l = some (c, n)) : 1 ≤ n := by
  rw [next8.eq_def] at h
  (repeat' split at h) <;> simp_all <;> omega

private theorem next16_pos {l : List Nat} {c : Option Char} {n : Nat} (h : next16 l = some (c, n)) : 1 ≤ n := by
  rw [next16.eq_def] at h
  (repeat' split at h) <;> (simp_all; try omega)

private theorem next_text (ty : StrTy) (c : Char) (t : List Char) :
    nextOf ty (ty.units (c :: t)) = some (item ty c, (ty.units [c]).length) := by
  rw [units_cons]
  cases ty
  · show next8 (utf8 [c] ++ utf8 t) = some (c, (utf8 [c]).length)
    rw [show utf8 [c] = utf8Char c by simp [utf8]]; exact next8_char c _
  · show next16 (utf16 [c] ++ utf16 t) = some (some c, (utf16 [c]).length)
    rw [show utf16 [c] = utf16Char c by simp [utf16]]; exact next16_char c _

private theorem next_nil (ty : StrTy) : nextOf ty [] = none := by cases ty <;> rfl

/-- What is decoded when nothing changes. -/
private def itemsOf : (ty : StrTy) → List Nat → List (codecOf ty).Item
  | .STRING => chars
  | .WSTRING => decode_utf16

private theorem items_none (ty : StrTy) {l : List Nat} (h : nextOf ty l = none) : itemsOf ty l = [] := by
  cases ty
  · have := chars_next l; rw [show next8 l = none from h] at this; exact this
  · have := decode_utf16_next l; rw [show next16 l = none from h] at this; exact this

private theorem items_some (ty : StrTy) {l : List Nat} {c : (codecOf ty).Item} {n : Nat} (h : nextOf ty l = some (c, n)) :
    itemsOf ty l = c :: itemsOf ty (l.drop n) := by
  cases ty
  · have := chars_next l; rw [show next8 l = some (c, n) from h] at this; exact this
  · have := decode_utf16_next l; rw [show next16 l = some (c, n) from h] at this; exact this

private theorem next_pos (ty : StrTy) {l : List Nat} {c : (codecOf ty).Item} {n : Nat} (h : nextOf ty l = some (c, n)) : 1 ≤ n := by
  cases ty
  · exact next8_pos h
  · exact next16_pos h

private theorem decodeSlice_items (ty : StrTy) {l : List Nat} {items : List (codecOf ty).Item} (h : (codecOf ty).decodeSlice l = .ok items) :
    items = itemsOf ty l := by
  cases ty
  · change (if from_utf8 l then Res.ok (chars l) else .panic) = _ at h
    split at h
    · cases h; rfl
    · cases h
  · change Res.ok (decode_utf16 l) = _ at h
    cases h; rfl

/-! ### Writing -/

/-- The destination of Model/Strings.lean as a variable with a cursor. -/
private def toVar (d : Dest) : Var := ⟨d.written ++ d.room, d.written.length⟩

private theorem put_toVar (d : Dest) (u : Nat) : (toVar d).put u = (d.put u >>= fun d => .ok (toVar d)) := by
  obtain ⟨a, b⟩ := d
  cases b with
  | nil => simp [Var.put, toVar, Dest.put]
  | cons x b =>
    simp [Var.put, toVar, Dest.put]

private theorem terminate_toVar (d : Dest) : (toVar d).terminate = (d.terminate >>= fun d => .ok (toVar d)) := by
  obtain ⟨a, b⟩ := d
  cases b with
  | nil => simp [Var.terminate, toVar, Dest.terminate]
  | cons x b => simp [Var.terminate, toVar, Dest.terminate]

private theorem puts_toVar (us : List Nat) (d : Dest) : us.foldlM Var.put (toVar d) = (us.foldlM Dest.put d >>= fun d => .ok (toVar d)) := by
  induction us generalizing d with
  | nil => rfl
  | cons u us ih =>
    rw [List.foldlM_cons, List.foldlM_cons, put_toVar]
    cases h : d.put u with
    | ok d' => rw [Res.bind_ok, Res.bind_ok, Res.bind_ok, ih]
    | panic => rfl
    | ub => rfl

/-! ### A source elsewhere -/

private def limited {α : Type} : Option Nat → List α → List α
  | none, l => l
  | some n, l => l.take n

private def emit (k : Codec) (d : Dest) (c : k.Item) : Res Dest := do
  let slice ← k.units c
  slice.foldlM Dest.put d

private theorem run_other (ty : StrTy) (fuel : Nat) (l : List Nat) (hl : l.length < fuel) (s : Nat) (lim : Option Nat) (d : Dest) :
    Stage.run (lazyOf ty) fuel ⟨.other l, s, lim⟩ (toVar d) =
      ((limited lim ((itemsOf ty l).drop s)).foldlM (emit (codecOf ty)) d >>= fun d => .ok (toVar d)) := by
  induction fuel generalizing l s lim d with
  | zero => omega
  | succ fuel ih =>
    rw [Stage.run]
    by_cases h0 : lim = some 0
    · subst h0; rw [if_pos rfl]; rfl
    rw [if_neg h0]
    dsimp only [lazyOf, Source.rest]
    cases hn : nextOf ty l with
    | none => rw [items_none ty hn]; cases lim <;> simp [limited]
    | some cn =>
      obtain ⟨c, n⟩ := cn
      have hpos := next_pos ty hn
      have hd : (l.drop n).length < fuel := by
        have : l ≠ [] := by rintro rfl; rw [next_nil] at hn; cases hn
        have := List.length_pos_iff.2 this
        rw [List.length_drop]; omega
      rw [items_some ty hn]
      dsimp only
      cases s with
      | succ s =>
        rw [if_pos (by omega)]
        exact ih _ hd s lim d
      | zero =>
        rw [if_neg (by omega), List.drop_zero]
        have hlim : limited lim (c :: itemsOf ty (l.drop n)) = c :: limited (lim.map (· - 1)) (itemsOf ty (l.drop n)) := by
          cases lim with
          | none => rfl
          | some m =>
            cases m with
            | zero => exact absurd rfl h0
            | succ m => rfl
        rw [hlim, List.foldlM_cons]
        unfold emit
        cases hu : (codecOf ty).units c with
        | panic => rfl
        | ub => rfl
        | ok us =>
          simp only [Res.bind_ok]
          rw [puts_toVar]
          cases hp : us.foldlM Dest.put d with
          | panic => rfl
          | ub => rfl
          | ok d' =>
            simp only [Res.bind_ok]
            have := ih _ hd 0 (lim.map (· - 1)) d'
            rw [List.drop_zero] at this
            exact this

/-- A stage that reads elsewhere, given by its slice, skip and limit. -/
private def away (x : List Nat × Nat × Option Nat) : Stage := ⟨.other x.1, x.2.1, x.2.2⟩

private def awayItems (ty : StrTy) (x : List Nat × Nat × Option Nat) : List (codecOf ty).Item := limited x.2.2 ((itemsOf ty x.1).drop x.2.1)

private theorem stages_away (ty : StrTy) (xs : List (List Nat × Nat × Option Nat)) (d : Dest) :
    (xs.map away).foldlM (fun v s => s.run (lazyOf ty) (s.size + 1) v) (toVar d) =
      ((xs.flatMap (awayItems ty)).foldlM (emit (codecOf ty)) d >>= fun d => .ok (toVar d)) := by
  induction xs generalizing d with
  | nil => rfl
  | cons x xs ih =>
    rw [List.map_cons, List.foldlM_cons, List.flatMap_cons, List.foldlM_append]
    have := run_other ty (x.1.length + 1) x.1 (by omega) x.2.1 x.2.2 d
    rw [show (away x).run (lazyOf ty) ((away x).size + 1) (toVar d) = _ from this]
    show _ = (((awayItems ty x).foldlM (emit (codecOf ty)) d >>= _) >>= _)
    unfold awayItems
    cases h : (limited x.2.2 ((itemsOf ty x.1).drop x.2.1)).foldlM (emit (codecOf ty)) d with
    | panic => rfl
    | ub => rfl
    | ok d' => simp only [Res.bind_ok]; exact ih d'

private theorem encode_away (ty : StrTy) (xs : List (List Nat × Nat × Option Nat)) (d : Dest) :
    (lazyOf ty).encode (xs.map away) (toVar d) = ((codecOf ty).encode (xs.flatMap (awayItems ty)) d >>= fun d => .ok (toVar d)) := by
  unfold LazyCodec.encode Codec.encode
  rw [stages_away]
  show _ = (((xs.flatMap (awayItems ty)).foldlM (emit (codecOf ty)) d >>= _) >>= _)
  cases h : (xs.flatMap (awayItems ty)).foldlM (emit (codecOf ty)) d with
  | panic => rfl
  | ub => rfl
  | ok d' => simp only [Res.bind_ok]; exact terminate_toVar d'

private theorem write_away (ty : StrTy) (xs : List (List Nat × Nat × Option Nat)) (mem : List Nat) :
    (lazyOf ty).write (xs.map away) mem = (codecOf ty).write (xs.flatMap (awayItems ty)) (some mem) := by
  unfold LazyCodec.write Codec.write openDest
  rw [show (⟨mem, 0⟩ : Var) = toVar ⟨[], mem⟩ from rfl, encode_away, Res.bind_ok]
  cases (codecOf ty).encode (xs.flatMap (awayItems ty)) ⟨[], mem⟩ <;> rfl

private theorem open_other (ty : StrTy) (mem : List Nat) (p : Ptr) :
    (∃ l, (codecOf ty).decode p = .ok (itemsOf ty l) ∧ (lazyOf ty).open mem (.other p) = .ok (.other l, (itemsOf ty l).length)) ∨
    ((codecOf ty).decode p = .panic ∧ (lazyOf ty).open mem (.other p) = .panic) ∨
    ((codecOf ty).decode p = .ub ∧ (lazyOf ty).open mem (.other p) = .ub) := by
  unfold Codec.decode LazyCodec.open
  show (∃ l, (ptr_to_slice p >>= _) = _ ∧ (ptr_to_slice p >>= _) = _) ∨ ((ptr_to_slice p >>= _) = _ ∧ (ptr_to_slice p >>= _) = _) ∨
    ((ptr_to_slice p >>= _) = _ ∧ (ptr_to_slice p >>= _) = _)
  cases ptr_to_slice p with
  | panic => exact .inr (.inl ⟨rfl, rfl⟩)
  | ub => exact .inr (.inr ⟨rfl, rfl⟩)
  | ok l =>
    simp only [Res.bind_ok, lazyOf]
    cases hd : (codecOf ty).decodeSlice l with
    | panic => exact .inr (.inl ⟨rfl, rfl⟩)
    | ub => exact .inr (.inr ⟨rfl, rfl⟩)
    | ok items =>
      rw [decodeSlice_items ty hd]
      exact .inl ⟨l, rfl, rfl⟩

/-! ### The variable itself as source -/

private theorem units_sublist (ty : StrTy) {s t : List Char} (h : s.Sublist t) : (ty.units s).length ≤ (ty.units t).length := by
  induction h with
  | slnil => exact Nat.le_refl _
  | cons c _ ih => rw [units_cons ty c, List.length_append]; omega
  | @cons_cons l₁ l₂ c _ ih => rw [units_cons ty c l₁, units_cons ty c l₂, List.length_append, List.length_append]; omega

private theorem limited_sublist {α : Type} (lim : Option Nat) (l : List α) : (limited lim l).Sublist l := by
  cases lim
  · exact List.Sublist.refl _
  · exact List.take_sublist ..

private theorem units_split (ty : StrTy) (t : List Char) (s : Nat) :
    (ty.units (t.take s)).length + (ty.units (t.drop s)).length = (ty.units t).length := by
  rw [← List.length_append, ← units_append, List.take_append_drop]

/-- Reading from `r` and writing at a position that is never behind the character being read: nothing is overwritten before it is read. -/
private theorem run_self (ty : StrTy) (fuel : Nat) (t : List Char) (hf : t.length < fuel) (s : Nat) (lim : Option Nat) (r e : Nat) (d : Dest)
    (hr : ((d.written ++ d.room).take e).drop r = ty.units t) (he : r + (ty.units t).length = e) (hel : e ≤ (d.written ++ d.room).length)
    (hw : s < t.length → d.written.length ≤ r + (ty.units (t.take s)).length) :
    Stage.run (lazyOf ty) fuel ⟨.self r e, s, lim⟩ (toVar d) =
      .ok (toVar ⟨d.written ++ ty.units (limited lim (t.drop s)), d.room.drop (ty.units (limited lim (t.drop s))).length⟩) := by
  induction fuel generalizing t s lim r d with
  | zero => omega
  | succ fuel ih =>
    rw [Stage.run]
    by_cases h0 : lim = some 0
    · subst h0; rw [if_pos rfl]; simp [limited, units_nil, toVar]
    rw [if_neg h0]
    dsimp only [lazyOf, Source.rest, toVar]
    rw [hr]
    cases t with
    | nil =>
      rw [units_nil, next_nil]
      have : limited lim (([] : List Char).drop s) = [] := by cases lim <;> simp [limited]
      rw [this]; simp [units_nil]
    | cons c t =>
      rw [next_text]
      dsimp only [Source.advance]
      have hlen : (ty.units (c :: t)).length = (ty.units [c]).length + (ty.units t).length := by rw [units_cons, List.length_append]
      have hr' : ∀ m : List Nat, m.length = (d.written ++ d.room).length →
          m.drop (r + (ty.units [c]).length) = (d.written ++ d.room).drop (r + (ty.units [c]).length) →
          (m.take e).drop (r + (ty.units [c]).length) = ty.units t := by
        intro m hm hmd
        rw [List.drop_take, hmd, ← List.drop_take, ← List.drop_drop, hr, units_cons ty c t, List.drop_left]
      cases s with
      | succ s =>
        rw [if_pos (by omega)]
        have := ih t (by simpa using hf) s lim (r + (ty.units [c]).length) d (hr' _ rfl rfl) (by omega)
          hel (by
            intro hs
            have := hw (by simpa using hs)
            rw [List.take_succ_cons, units_cons, List.length_append] at this; omega)
        simpa [toVar, lazyOf] using this
      | zero =>
        rw [if_neg (by omega), units_item, Res.bind_ok]
        have hw' : d.written.length ≤ r := by simpa [units_nil] using hw (by simp)
        have hroom : (ty.units [c]).length ≤ d.room.length := by
          rw [List.length_append] at hel; omega
        have hlim : limited lim (c :: t) = c :: limited (lim.map (· - 1)) t := by
          cases lim with
          | none => rfl
          | some m =>
            cases m with
            | zero => exact absurd rfl h0
            | succ m => rfl
        have hput := puts_toVar (ty.units [c]) d
        rw [put_all, if_pos hroom, Res.bind_ok] at hput
        rw [show (⟨d.written ++ d.room, d.written.length⟩ : Var) = toVar d from rfl, hput, Res.bind_ok]
        have := ih t (by simpa using hf) 0 (lim.map (· - 1)) (r + (ty.units [c]).length)
          ⟨d.written ++ ty.units [c], d.room.drop (ty.units [c]).length⟩
          (hr' _ (by simp only [List.length_append, List.length_drop]; omega) (by
            dsimp only
            rw [List.drop_append (l₁ := d.written ++ ty.units [c]), List.drop_append (l₁ := d.written) (l₂ := d.room), List.drop_eq_nil_of_le (as := d.written ++ ty.units [c]) (by rw [List.length_append]; omega),
              List.drop_eq_nil_of_le (as := d.written) (by omega), List.nil_append, List.nil_append, List.drop_drop]
            congr 1; rw [List.length_append]; omega))
          (by omega) (by simp only [List.length_append, List.length_drop] at hel ⊢; omega)
          (by intro _; simp only [List.length_append]; omega)
        rw [List.drop_zero] at this ⊢
        rw [hlim, units_cons ty c (limited _ t), ← List.append_assoc, List.length_append, ← List.drop_drop]
        exact this

private theorem open_self (ty : StrTy) {mem : List Nat} {t : List Char} (h : Holds mem (ty.units t)) :
    (lazyOf ty).open mem .self = .ok (.self 0 (ty.units t).length, t.length) := by
  unfold LazyCodec.open
  show (ptr_to_slice (some mem) >>= _) = _
  rw [ptr_to_slice_of_holds h, Res.bind_ok]
  show ((codecOf ty).decodeSlice _ >>= _) = _
  rw [decodeSlice_text]
  show Res.ok (Source.self 0 (ty.units t).length, (t.map (item ty)).length) = _
  rw [List.length_map]

/-- A source that lies in front of the cursor is not touched by the writing. -/
private theorem run_behind (ty : StrTy) (fuel : Nat) (l : List Nat) (s : Nat) (lim : Option Nat) (r e : Nat) (d : Dest)
    (hl : (d.written.take e).drop r = l) (he : e ≤ d.written.length) :
    Stage.run (lazyOf ty) fuel ⟨.self r e, s, lim⟩ (toVar d) = Stage.run (lazyOf ty) fuel ⟨.other l, s, lim⟩ (toVar d) := by
  induction fuel generalizing l s lim r d with
  | zero => rfl
  | succ fuel ih =>
    rw [Stage.run, Stage.run]
    dsimp only [lazyOf, Source.rest, toVar, Source.advance]
    rw [List.take_append_of_le_length he, hl]
    split
    · rfl
    cases nextOf ty l with
    | none => rfl
    | some cn =>
      obtain ⟨c, n⟩ := cn
      dsimp only
      split
      · exact ih _ _ _ _ _ (by rw [← hl, List.drop_drop]) he
      · cases (codecOf ty).units c with
        | panic => rfl
        | ub => rfl
        | ok us =>
          rw [Res.bind_ok, Res.bind_ok, show (⟨d.written ++ d.room, d.written.length⟩ : Var) = toVar d from rfl, puts_toVar, put_all]
          split
          · rw [Res.bind_ok, Res.bind_ok, Res.bind_ok]
            exact ih _ _ _ _ _ (by dsimp only; rw [← hl, List.drop_drop, List.take_append_of_le_length he])
              (by dsimp only; rw [List.length_append]; omega)
          · rfl

private theorem items_text (ty : StrTy) (t : List Char) : itemsOf ty (ty.units t) = t.map (item ty) :=
  (decodeSlice_items ty (decodeSlice_text ty t)).symm

private theorem run_text (ty : StrTy) (fuel : Nat) (t : List Char) (s : Nat) (lim : Option Nat) (d : Dest) (hf : (ty.units t).length < fuel) :
    Stage.run (lazyOf ty) fuel ⟨.other (ty.units t), s, lim⟩ (toVar d) =
      if (ty.units (limited lim (t.drop s))).length ≤ d.room.length then
        .ok (toVar ⟨d.written ++ ty.units (limited lim (t.drop s)), d.room.drop (ty.units (limited lim (t.drop s))).length⟩)
      else .ub := by
  rw [run_other ty fuel _ hf, items_text]
  have : limited lim ((t.map (item ty)).drop s) = (limited lim (t.drop s)).map (item ty) := by
    cases lim <;> simp [limited, List.map_take]
  rw [this]
  have := encode_items (codecOf ty) ((limited lim (t.drop s)).map (item ty)) d (allUnits_text ty _)
  rw [show List.foldlM (emit (codecOf ty)) d ((limited lim (t.drop s)).map (item ty)) = _ from this]
  split <;> rfl

private theorem finish (mem out : List Nat) (h : out.length ≤ mem.length) :
    (((toVar ⟨out, mem.drop out.length⟩).terminate) >>= fun v => pure v.mem) = store mem out := by
  rw [terminate_toVar]
  unfold store Dest.terminate
  dsimp only
  split
  · rename_i h1
    have := List.drop_eq_nil_iff.1 h1
    rw [if_neg (by omega)]; rfl
  · rename_i h1
    rw [if_pos (by
      apply Nat.lt_of_not_le; intro h2
      rw [List.drop_eq_nil_of_le h2] at h1; cases h1)]
    rw [← List.drop_drop, h1]
    rfl

private theorem length_le_units' (ty : StrTy) (t : List Char) : t.length ≤ (ty.units t).length := by
  induction t with
  | nil => simp
  | cons c t ih =>
    have := units_length_pos ty c
    rw [units_cons ty c t, List.length_append, List.length_cons]; omega

/-- The first stage: from the beginning of the variable onto itself. -/
private theorem run_first (ty : StrTy) (t : List Char) (tail : List Nat) (s : Nat) (lim : Option Nat) :
    Stage.run (lazyOf ty) ((⟨.self 0 (ty.units t).length, s, lim⟩ : Stage).size + 1) ⟨.self 0 (ty.units t).length, s, lim⟩ ⟨ty.units t ++ tail, 0⟩ =
      .ok (toVar ⟨ty.units (limited lim (t.drop s)), (ty.units t ++ tail).drop (ty.units (limited lim (t.drop s))).length⟩) := by
  have hlen := length_le_units' ty t
  have := run_self ty ((ty.units t).length - 0 + 1) t (by omega) s lim 0 (ty.units t).length ⟨[], ty.units t ++ tail⟩
    (by simp) (by omega) (by simp) (by simp)
  rw [List.nil_append] at this
  exact this

private theorem units_le (ty : StrTy) (t : List Char) (s : Nat) (lim : Option Nat) :
    (ty.units (limited lim (t.drop s))).length ≤ (ty.units t).length :=
  units_sublist ty ((limited_sublist lim _).trans (List.drop_sublist ..))

private theorem write_one (ty : StrTy) (t : List Char) (tail : List Nat) (s : Nat) (lim : Option Nat) :
    (lazyOf ty).write [⟨.self 0 (ty.units t).length, s, lim⟩] (ty.units t ++ tail) = store (ty.units t ++ tail) (ty.units (limited lim (t.drop s))) := by
  unfold LazyCodec.write LazyCodec.encode
  rw [List.foldlM_cons, run_first]
  simp only [List.foldlM_nil, Res.bind_ok, Res.pure_eq]
  exact finish _ _ (by have := units_le ty t s lim; rw [List.length_append]; omega)

/-- What is in front of the cursor has been written over itself. -/
private theorem whole (ty : StrTy) (t : List Char) (tail : List Nat) (n : Nat) :
    ty.units (t.take n) ++ (ty.units t ++ tail).drop (ty.units (t.take n)).length = ty.units t ++ tail := by
  have : ty.units t ++ tail = ty.units (t.take n) ++ (ty.units (t.drop n) ++ tail) := by
    rw [← List.append_assoc, ← units_append, List.take_append_drop]
  rw [this, List.drop_left]

private theorem write_two (ty : StrTy) (t : List Char) (tail : List Nat) (n s : Nat) (hn : n ≤ s) :
    (lazyOf ty).write [⟨.self 0 (ty.units t).length, 0, some n⟩, ⟨.self 0 (ty.units t).length, s, none⟩] (ty.units t ++ tail) =
      store (ty.units t ++ tail) (ty.units (t.take n ++ t.drop s)) := by
  have hns : (ty.units (t.take n)).length ≤ (ty.units (t.take s)).length := by
    apply units_sublist
    rw [show t.take n = (t.take s).take n by rw [List.take_take, Nat.min_eq_left hn]]
    exact List.take_sublist ..
  have hsp := units_split ty t s
  have hlen := length_le_units' ty t
  unfold LazyCodec.write LazyCodec.encode
  rw [List.foldlM_cons, run_first, Res.bind_ok, List.foldlM_cons]
  simp only [limited, List.drop_zero]
  have := run_self ty ((ty.units t).length - 0 + 1) t (by omega) s none 0 (ty.units t).length
    ⟨ty.units (t.take n), (ty.units t ++ tail).drop (ty.units (t.take n)).length⟩
    (by dsimp only; rw [whole]; simp) (by omega) (by dsimp only; rw [whole]; simp) (by intro _; dsimp only; omega)
  rw [show (⟨.self 0 (ty.units t).length, s, none⟩ : Stage).size = (ty.units t).length - 0 from rfl, this]
  simp only [List.foldlM_nil, Res.bind_ok, Res.pure_eq, limited, List.drop_drop]
  rw [units_append, ← List.length_append]
  exact finish _ _ (by rw [List.length_append, List.length_append]; omega)

/-- Base text, another text, base text again: right when `t'`, the text that is in memory when the base is read again, ends like the base and
nothing has been written behind the place where it is read. -/
private theorem write_three (ty : StrTy) (a b t' : List Char) (tail : List Nat) (n s : Nat)
    (ht : ((ty.units (a.take n) ++ ty.units b) ++ (ty.units a ++ tail).drop (ty.units (a.take n) ++ ty.units b).length).take (ty.units a).length =
      ty.units t') (hl : (ty.units t').length = (ty.units a).length)
    (hd : t'.drop s = a.drop s) (hw : s < t'.length → (ty.units (a.take n) ++ ty.units b).length ≤ (ty.units (t'.take s)).length) :
    (lazyOf ty).write [⟨.self 0 (ty.units a).length, 0, some n⟩, ⟨.other (ty.units b), 0, none⟩, ⟨.self 0 (ty.units a).length, s, none⟩]
      (ty.units a ++ tail) = store (ty.units a ++ tail) (ty.units (a.take n ++ b ++ a.drop s)) := by
  have hn := units_split ty a n
  have hlen := length_le_units' ty t'
  have hs := units_split ty t' s
  unfold LazyCodec.write LazyCodec.encode
  rw [List.foldlM_cons, run_first, Res.bind_ok, List.foldlM_cons]
  simp only [limited, List.drop_zero]
  have h2 := run_text ty ((ty.units b).length + 1) b 0 none
    ⟨ty.units (a.take n), (ty.units a ++ tail).drop (ty.units (a.take n)).length⟩ (by omega)
  rw [show (⟨.other (ty.units b), 0, none⟩ : Stage).size = (ty.units b).length from rfl, h2]
  simp only [limited, List.drop_zero, List.length_drop, List.drop_drop]
  rw [units_append, units_append]
  by_cases hroom : (ty.units b).length ≤ (ty.units a ++ tail).length - (ty.units (a.take n)).length
  · rw [if_pos hroom, Res.bind_ok, List.foldlM_cons]
    rw [← List.length_append (as := ty.units (a.take n))]
    have hfit : (ty.units (a.take n) ++ ty.units b).length ≤ (ty.units a ++ tail).length := by
      simp only [List.length_append] at hroom ⊢; omega
    have := run_self ty ((ty.units a).length - 0 + 1) t' (by omega) s none 0 (ty.units a).length
      ⟨ty.units (a.take n) ++ ty.units b, (ty.units a ++ tail).drop (ty.units (a.take n) ++ ty.units b).length⟩
      (by dsimp only; rw [ht, List.drop_zero]) (by omega)
      (by dsimp only; rw [List.length_append (bs := List.drop _ _), List.length_drop, List.length_append (bs := tail)] at *; omega)
      (by intro h; dsimp only; have := hw h; omega)
    rw [show (⟨.self 0 (ty.units a).length, s, none⟩ : Stage).size = (ty.units a).length - 0 from rfl, this]
    simp only [List.foldlM_nil, Res.bind_ok, Res.pure_eq, limited, List.drop_drop]
    rw [hd, ← List.length_append]
    refine finish _ _ ?_
    by_cases hst : s < t'.length
    · have := hw hst
      rw [List.length_append, ← hd, List.length_append (bs := tail)]; omega
    · have : a.drop s = [] := by rw [← hd]; exact List.drop_eq_nil_of_le (by omega)
      rw [this, units_nil, List.append_nil]; exact hfit
  · rw [if_neg hroom]
    unfold store
    rw [if_neg (by simp only [List.length_append] at hroom ⊢; omega)]
    rfl

private theorem open_text (ty : StrTy) (mem : List Nat) {memb : List Nat} {b : List Char} (h : Holds memb (ty.units b)) :
    (lazyOf ty).open mem (.other (some memb)) = .ok (.other (ty.units b), b.length) := by
  unfold LazyCodec.open
  show (ptr_to_slice (some memb) >>= _) = _
  rw [ptr_to_slice_of_holds h, Res.bind_ok]
  show ((codecOf ty).decodeSlice _ >>= _) = _
  rw [decodeSlice_text]
  show Res.ok (Source.other (ty.units b), (b.map (item ty)).length) = _
  rw [List.length_map]

/-! ### C143 -/

/-- **C143.** With arguments elsewhere, reading and writing by turns is the same as reading everything first: the definitions of Model/Strings.lean,
which C45 to C48 are about. -/
theorem C143_separate (p : Profile) (ty : StrTy) (mem : List Nat) (a b : Ptr) (L P : Int) :
    leftOver (lazyOf ty) mem (.other a) L = left (codecOf ty) a L (some mem) ∧
    rightOver (lazyOf ty) mem (.other a) L = right (codecOf ty) a L (some mem) ∧
    midOver p (lazyOf ty) mem (.other a) L P = mid p (codecOf ty) a L P (some mem) ∧
    insertOver (lazyOf ty) mem (.other a) (.other b) P = insert (codecOf ty) a b P (some mem) ∧
    deleteOver p (lazyOf ty) mem (.other a) L P = delete p (codecOf ty) a L P (some mem) ∧
    replaceOver p (lazyOf ty) mem (.other a) (.other b) L P = replace p (codecOf ty) a b L P (some mem) := by
  have w1 : ∀ l s lim, (lazyOf ty).write [⟨.other l, s, lim⟩] mem = (codecOf ty).write (limited lim ((itemsOf ty l).drop s)) (some mem) := by
    intro l s lim
    have := write_away ty [(l, s, lim)] mem
    simpa [away, awayItems] using this
  have w2 : ∀ l s lim l' s' lim', (lazyOf ty).write [⟨.other l, s, lim⟩, ⟨.other l', s', lim'⟩] mem =
      (codecOf ty).write (limited lim ((itemsOf ty l).drop s) ++ limited lim' ((itemsOf ty l').drop s')) (some mem) := by
    intro l s lim l' s' lim'
    have := write_away ty [(l, s, lim), (l', s', lim')] mem
    simpa [away, awayItems] using this
  have w3 : ∀ l s lim l' s' lim' l'' s'' lim'', (lazyOf ty).write [⟨.other l, s, lim⟩, ⟨.other l', s', lim'⟩, ⟨.other l'', s'', lim''⟩] mem =
      (codecOf ty).write (limited lim ((itemsOf ty l).drop s) ++ (limited lim' ((itemsOf ty l').drop s') ++
        limited lim'' ((itemsOf ty l'').drop s''))) (some mem) := by
    intro l s lim l' s' lim' l'' s'' lim''
    have := write_away ty [(l, s, lim), (l', s', lim'), (l'', s'', lim'')] mem
    simpa [away, awayItems] using this
  unfold leftOver left rightOver right midOver mid insertOver insert deleteOver delete replaceOver replace
  rcases open_other ty mem a with ⟨l, e1, e2⟩ | ⟨e1, e2⟩ | ⟨e1, e2⟩
  · rcases open_other ty mem b with ⟨l', f1, f2⟩ | ⟨f1, f2⟩ | ⟨f1, f2⟩
    · simp [e1, e2, f1, f2, w1, w2, w3, limited]
    · simp [e1, e2, f1, f2, w1, w2, limited]
    · simp [e1, e2, f1, f2, w1, w2, limited]
  · simp [e1, e2]
  · simp [e1, e2]


/-- **C143.** LEFT, RIGHT, MID and DELETE may write their result over the text they read: the result is the one of C45 and C46. -/
theorem C143_left (ty : StrTy) (mem : List Nat) (t : List Char) (L : Int) (h : Holds mem (ty.units t)) (hL : IntTy.i32.InRange L) :
    leftOver (lazyOf ty) mem .self L = if 0 ≤ L ∧ L ≤ t.length then store mem (ty.units (t.take L.toNat)) else .panic := by
  have hb := i32_bounds hL
  unfold leftOver
  rw [open_self ty h]
  by_cases h0 : L < 0
  · rw [if_pos h0, if_neg (by omega)]
  rw [if_neg h0, asUsize_nonneg (by omega) (by omega), Res.bind_ok]
  dsimp only
  by_cases h1 : t.length < L.toNat
  · rw [if_pos h1, if_neg (by omega)]
  rw [if_neg h1, if_pos (by omega)]
  obtain ⟨_, tail, rfl⟩ := h
  rw [write_one]; rfl

theorem C143_right (ty : StrTy) (mem : List Nat) (t : List Char) (L : Int) (h : Holds mem (ty.units t)) (hL : IntTy.i32.InRange L) :
    rightOver (lazyOf ty) mem .self L = if 0 ≤ L ∧ L ≤ t.length then store mem (ty.units (t.drop (t.length - L.toNat))) else .panic := by
  have hb := i32_bounds hL
  unfold rightOver
  rw [open_self ty h]
  by_cases h0 : L < 0
  · rw [if_pos h0, if_neg (by omega)]
  rw [if_neg h0, asUsize_nonneg (by omega) (by omega), Res.bind_ok]
  dsimp only
  by_cases h1 : t.length < L.toNat
  · rw [if_pos h1, if_neg (by omega)]
  rw [if_neg h1, if_pos (by omega)]
  obtain ⟨_, tail, rfl⟩ := h
  rw [write_one]; rfl

theorem C143_mid (p : Profile) (ty : StrTy) (mem : List Nat) (t : List Char) (L P : Int) (h : Holds mem (ty.units t)) (hlen : t.length < 2 ^ 63)
    (hL : IntTy.i32.InRange L) (hP : IntTy.i32.InRange P) :
    midOver p (lazyOf ty) mem .self L P =
      if 0 ≤ L ∧ 1 ≤ P ∧ P ≤ t.length ∧ P - 1 + L ≤ t.length then store mem (ty.units ((t.drop (P - 1).toNat).take L.toNat)) else .panic := by
  have hbL := i32_bounds hL
  have hbP := i32_bounds hP
  unfold midOver
  rw [open_self ty h]
  by_cases h0 : L < 0
  · rw [if_pos h0, if_neg (by omega)]
  rw [if_neg h0, asUsize_nonneg (x := L) (by omega) (by omega), Res.bind_ok]
  dsimp only
  by_cases hp : P < 0
  · rw [asUsize_neg hp (by omega), if_pos (by simp only [Bool.or_eq_true, decide_eq_true_eq]; omega), if_neg (by omega)]
  rw [asUsize_nonneg (x := P) (by omega) (by omega)]
  by_cases h1 : P.toNat < 1 ∨ P.toNat > t.length
  · rw [if_pos (by simp only [Bool.or_eq_true, decide_eq_true_eq]; exact h1), if_neg (by omega)]
  rw [if_neg (by simp only [Bool.or_eq_true, decide_eq_true_eq]; exact h1), arith_u64 p (by omega) (by omega), Res.bind_ok]
  by_cases h2 : (t.length : Int) < ((L.toNat : Int) + ((P.toNat - 1 : Nat) : Int))
  · rw [if_pos h2, if_neg (by omega)]
  rw [if_neg h2, if_pos (by omega)]
  obtain ⟨_, tail, rfl⟩ := h
  rw [write_one, show P.toNat - 1 = (P - 1).toNat by omega]; rfl

theorem C143_delete (p : Profile) (ty : StrTy) (mem : List Nat) (t : List Char) (L P : Int) (h : Holds mem (ty.units t)) (hlen : t.length < 2 ^ 31)
    (hL : IntTy.i32.InRange L) (hP : IntTy.i32.InRange P) (hL0 : 0 ≤ L) :
    deleteOver p (lazyOf ty) mem .self L P =
      if 1 ≤ P ∧ P ≤ t.length ∧ P - 1 + L ≤ t.length then store mem (ty.units (t.take (P - 1).toNat ++ t.drop (P - 1 + L).toNat)) else .panic := by
  have hbL := i32_bounds hL
  have hbP := i32_bounds hP
  unfold deleteOver
  rw [open_self ty h, Res.bind_ok]
  dsimp only
  rw [asI32_small hlen]
  by_cases h0 : P < 1 ∨ P > t.length
  · rw [if_pos (by simp only [Bool.or_eq_true, decide_eq_true_eq]; exact h0), if_neg (by omega)]
  rw [if_neg (by simp only [Bool.or_eq_true, decide_eq_true_eq]; exact h0), asUsize_nonneg (x := P) (by omega) (by omega),
    asUsize_nonneg (x := L) (by omega) (by omega), arith_u64 p (by omega) (by omega), Res.bind_ok]
  by_cases h1 : ((L.toNat : Int) + ((P.toNat - 1 : Nat) : Int)) > t.length
  · rw [if_pos h1, if_neg (by omega)]
  rw [if_neg h1, if_pos (by omega)]
  obtain ⟨_, tail, rfl⟩ := h
  rw [write_two _ _ _ _ _ (by omega), show P.toNat - 1 = (P - 1).toNat by omega,
    show (((L.toNat : Int) + ((P - 1).toNat : Int))).toNat = (P - 1 + L).toNat by omega]

/-- Right when nothing is inserted and when the text is put behind the last character. -/
theorem C143_insert_partial (ty : StrTy) (mem memb : List Nat) (a b : List Char) (P : Int) (ha : Holds mem (ty.units a))
    (hb : Holds memb (ty.units b)) (hlen : a.length < 2 ^ 31) (hP : IntTy.i32.InRange P) (h : b = [] ∨ P = a.length) :
    insertOver (lazyOf ty) mem .self (.other (some memb)) P =
      if 0 ≤ P ∧ P ≤ a.length then store mem (ty.units (a.take P.toNat ++ b ++ a.drop P.toNat)) else .panic := by
  have hbP := i32_bounds hP
  unfold insertOver
  rw [open_self ty ha, Res.bind_ok]
  dsimp only
  rw [asI32_small hlen]
  by_cases h0 : P < 0 ∨ P > a.length
  · rw [if_pos (by simp only [Bool.or_eq_true, decide_eq_true_eq]; exact h0), if_neg (by omega)]
  rw [if_neg (by simp only [Bool.or_eq_true, decide_eq_true_eq]; exact h0), if_pos (by omega), open_text ty mem hb, Res.bind_ok,
    asUsize_nonneg (by omega) (by omega)]
  obtain ⟨_, tail, rfl⟩ := ha
  refine write_three ty a b a _ _ _ ?_ rfl rfl ?_
  · rcases h with rfl | h
    · rw [units_nil, List.append_nil, whole, List.take_left]
    · rw [h, Int.toNat_natCast, List.take_length, List.append_assoc, List.take_left]
  · intro hs
    rcases h with rfl | h
    · rw [units_nil, List.append_nil]
    · omega

/-- Right when no more characters are put in than are taken out and they take as many units as the ones they are written over. -/
theorem C143_replace_partial (p : Profile) (ty : StrTy) (mem memb : List Nat) (a b : List Char) (L P : Int) (ha : Holds mem (ty.units a))
    (hb : Holds memb (ty.units b)) (hlen : a.length < 2 ^ 31) (hL : IntTy.i32.InRange L) (hP : IntTy.i32.InRange P) (hL0 : 0 ≤ L)
    (hbL : b.length ≤ L) (hu : (ty.units b).length = (ty.units ((a.drop (P - 1).toNat).take b.length)).length) :
    replaceOver p (lazyOf ty) mem .self (.other (some memb)) L P =
      if 1 ≤ P ∧ P ≤ a.length ∧ P - 1 + L ≤ a.length then
        store mem (ty.units (a.take (P - 1).toNat ++ b ++ a.drop (P - 1 + L).toNat)) else .panic := by
  have hb1 := i32_bounds hL
  have hb2 := i32_bounds hP
  unfold replaceOver
  rw [open_self ty ha, Res.bind_ok]
  dsimp only
  rw [asI32_small hlen]
  by_cases h0 : P < 1 ∨ P > a.length
  · rw [if_pos (by simp only [Bool.or_eq_true, decide_eq_true_eq]; exact h0), if_neg (by omega)]
  rw [if_neg (by simp only [Bool.or_eq_true, decide_eq_true_eq]; exact h0), asUsize_nonneg (x := P - 1) (by omega) (by omega),
    asUsize_nonneg (x := L) (by omega) (by omega), arith_u64 p (by omega) (by omega), Res.bind_ok]
  by_cases h1 : ((L.toNat : Int) + ((P - 1).toNat : Int)) > a.length
  · rw [if_pos h1, if_neg (by omega)]
  rw [if_neg h1, if_pos (by omega), open_text ty mem hb, Res.bind_ok]
  dsimp only
  rw [show (((L.toNat : Int) + ((P - 1).toNat : Int))).toNat = (P - 1 + L).toNat by omega]
  have hs : (P - 1).toNat + b.length ≤ (P - 1 + L).toNat := by omega
  have hn : (P - 1).toNat + b.length ≤ a.length := by omega
  generalize (P - 1).toNat = n at hs hn hu
  generalize (P - 1 + L).toNat = s at hs
  obtain ⟨_, tail, rfl⟩ := ha
  have hpre : (ty.units (a.take n) ++ ty.units b).length = (ty.units (a.take (n + b.length))).length := by
    rw [List.length_append, hu, ← List.length_append, ← units_append, List.take_add]
  have hmem : (ty.units a ++ 0 :: tail).drop (ty.units (a.take n) ++ ty.units b).length = ty.units (a.drop (n + b.length)) ++ 0 :: tail := by
    rw [hpre, show ty.units a = ty.units (a.take (n + b.length)) ++ ty.units (a.drop (n + b.length)) by
      rw [← units_append, List.take_append_drop], List.append_assoc, List.drop_left]
  have hlen' : (ty.units (a.take n ++ b ++ a.drop (n + b.length))).length = (ty.units a).length := by
    rw [units_append, units_append, List.length_append, hpre, ← List.length_append, ← units_append, List.take_append_drop]
  refine write_three ty a b (a.take n ++ b ++ a.drop (n + b.length)) _ _ _ ?_ hlen' ?_ ?_
  · rw [hmem, ← List.append_assoc, ← units_append, ← units_append, ← hlen', List.take_left]
  · rw [List.drop_append, List.drop_eq_nil_of_le (by simp; omega), List.nil_append, List.drop_drop]
    congr 1; simp; omega
  · intro _
    rw [List.take_append, List.take_of_length_le (l := a.take n ++ b) (by simp; omega), units_append, units_append]
    simp only [List.length_append]; omega

/-! #### INSERT into the text itself -/

private theorem next_unit (ty : StrTy) (c : Char) (l : List Nat) : nextOf ty (ty.units [c] ++ l) = some (item ty c, (ty.units [c]).length) := by
  cases ty
  · show next8 (utf8 [c] ++ l) = some (c, (utf8 [c]).length)
    rw [show utf8 [c] = utf8Char c by simp [utf8]]; exact next8_char c _
  · show next16 (utf16 [c] ++ l) = some (some c, (utf16 [c]).length)
    rw [show utf16 [c] = utf16Char c by simp [utf16]]; exact next16_char c _

/-- Every character takes one unit. -/
def OneUnit (ty : StrTy) (t : List Char) : Prop := ∀ c ∈ t, (ty.units [c]).length = 1

private theorem one_length {ty : StrTy} {t : List Char} (h : OneUnit ty t) : (ty.units t).length = t.length := by
  induction t with
  | nil => simp [units_nil]
  | cons c t ih =>
    rw [units_cons ty c t, List.length_append, ih (fun c hc => h c (by simp [hc])), h c (by simp), List.length_cons]; omega

private theorem one_sublist {ty : StrTy} {s t : List Char} (h : OneUnit ty t) (hs : s.Sublist t) : OneUnit ty s :=
  fun c hc => h c (hs.subset hc)

/-- `T` with `k` more characters, each the one `n` places before. -/
private def extend (n : Nat) : Nat → List Char → List Char
  | 0, T => T
  | k + 1, T => extend n k (T ++ (T[T.length - n]?).toList)

private theorem run_repeat (ty : StrTy) (fuel : Nat) (T : List Char) (room : List Nat) (r e n : Nat) (hn : 0 < n) (hr : r + n = T.length)
    (he : r ≤ e) (hm : e ≤ T.length + room.length) (h1 : OneUnit ty T) (hf : e - r < fuel) :
    Stage.run (lazyOf ty) fuel ⟨.self r e, 0, none⟩ (toVar ⟨ty.units T, room⟩) =
      if e - r ≤ room.length then .ok (toVar ⟨ty.units (extend n (e - r) T), room.drop (e - r)⟩) else .ub := by
  induction fuel generalizing T room r with
  | zero => omega
  | succ fuel ih =>
    rw [Stage.run, if_neg (by simp)]
    dsimp only [lazyOf, Source.rest, toVar, Source.advance]
    have hl := one_length h1
    by_cases hre : r = e
    · subst hre
      rw [List.drop_eq_nil_of_le (by simp), next_nil, Nat.sub_self, if_pos (by omega)]
      rfl
    have hc : r < T.length := by omega
    have hdrop : ∃ l, ((ty.units T ++ room).take e).drop r = ty.units [T[r]] ++ l := by
      have hT : ty.units T = ty.units (T.take r) ++ (ty.units [T[r]] ++ ty.units (T.drop (r + 1))) := by
        rw [← units_append, ← units_append, List.singleton_append, List.getElem_cons_drop, List.take_append_drop]
      have hp : (ty.units (T.take r)).length = r := by
        rw [one_length (one_sublist h1 (List.take_sublist ..)), List.length_take]; omega
      have hq : (ty.units [T[r]]).length = 1 := h1 _ (List.getElem_mem hc)
      refine ⟨(ty.units (T.drop (r + 1)) ++ room).take (e - r - 1), ?_⟩
      rw [List.drop_take, hT, List.append_assoc, List.append_assoc, List.drop_append_of_le_length (by omega),
        List.drop_eq_nil_of_le (by omega), List.nil_append, List.take_append, hq, List.take_of_length_le (by omega)]
    obtain ⟨l, hl'⟩ := hdrop
    rw [hl', next_unit]
    dsimp only
    rw [if_neg (by omega), units_item, Res.bind_ok, show (⟨ty.units T ++ room, (ty.units T).length⟩ : Var) = toVar ⟨ty.units T, room⟩ from rfl,
      puts_toVar, put_all, h1 _ (List.getElem_mem hc)]
    dsimp only
    by_cases hroom : 1 ≤ room.length
    · rw [if_pos hroom, Res.bind_ok, Res.bind_ok]
      have hone : OneUnit ty (T ++ [T[r]]) := by
        intro c hc'
        rcases List.mem_append.1 hc' with h | h
        · exact h1 c h
        · rw [List.mem_singleton.1 h]; exact h1 _ (List.getElem_mem hc)
      have := ih (T ++ [T[r]]) (room.drop 1) (r + 1) (by simp; omega) (by omega) (by simp; omega) hone (by omega)
      rw [← units_append]
      refine Eq.trans this ?_
      have hx : extend n (e - r) T = extend n (e - (r + 1)) (T ++ [T[r]]) := by
        rw [show e - r = e - (r + 1) + 1 by omega, extend, show T.length - n = r by omega, List.getElem?_eq_getElem hc]; rfl
      rw [hx, List.length_drop, List.drop_drop, show 1 + (e - (r + 1)) = e - r by omega]
      by_cases hfit : e - r ≤ room.length
      · rw [if_pos hfit, if_pos (by omega)]; rfl
      · rw [if_neg hfit, if_neg (by omega)]
    · rw [if_neg hroom, if_neg (by omega)]; rfl

private theorem run_skip (ty : StrTy) (fuel : Nat) (pre : List Char) (h1 : OneUnit ty pre) (r e : Nat) (lim : Option Nat) (hlim : lim ≠ some 0) (v : Var)
    (l : List Nat) (hl : (v.mem.take e).drop r = ty.units pre ++ l) :
    Stage.run (lazyOf ty) (fuel + pre.length) ⟨.self r e, pre.length, lim⟩ v = Stage.run (lazyOf ty) fuel ⟨.self (r + pre.length) e, 0, lim⟩ v := by
  induction pre generalizing r with
  | nil => rfl
  | cons c pre ih =>
    rw [List.length_cons, ← Nat.add_assoc, Stage.run, if_neg hlim]
    dsimp only [lazyOf, Source.rest, Source.advance]
    have hu := h1 c (by simp)
    rw [units_cons ty c pre, List.append_assoc] at hl
    rw [hl, next_unit]
    dsimp only
    rw [if_pos (by omega), hu]
    have := ih (fun c hc => h1 c (by simp [hc])) (r + 1) (by rw [← List.drop_drop, hl, ← hu, List.drop_left])
    rw [show r + (pre.length + 1) = r + 1 + pre.length by omega]
    exact this

/-- The first `m` characters of `b b b …`. -/
def cycle (b : List Char) (m : Nat) : List Char := (List.range m).map fun i => b.getD (i % b.length) ' '

example : cycle ['X', 'Y'] 5 = ['X', 'Y', 'X', 'Y', 'X'] := by decide

private theorem cycle_self (b : List Char) : cycle b b.length = b := by
  apply List.ext_getElem
  · simp [cycle]
  · intro i h1 h2
    simp [cycle, Nat.mod_eq_of_lt h2, List.getElem?_eq_getElem h2]

private theorem extend_cycle (pre b : List Char) (m k : Nat) (hb : 0 < b.length) (hm : b.length ≤ m) :
    extend b.length k (pre ++ cycle b m) = pre ++ cycle b (m + k) := by
  induction k generalizing m with
  | zero => rfl
  | succ k ih =>
    rw [extend]
    have hlen : (pre ++ cycle b m).length = pre.length + m := by simp [cycle]
    have : ((pre ++ cycle b m)[(pre ++ cycle b m).length - b.length]?).toList = [b.getD (m % b.length) ' '] := by
      rw [hlen, List.getElem?_append_right (by omega), show pre.length + m - b.length - pre.length = m - b.length by omega]
      have h2 : (m - b.length) % b.length = m % b.length := (Nat.mod_eq_sub_mod hm).symm
      simp [cycle, List.getElem?_range (show m - b.length < m by omega), h2]
    rw [this, List.append_assoc, show cycle b m ++ [b.getD (m % b.length) ' '] = cycle b (m + 1) by simp [cycle, List.range_succ], ih (m + 1) (by omega)]
    congr 2; omega

private theorem one_append {ty : StrTy} {s t : List Char} (hs : OneUnit ty s) (ht : OneUnit ty t) : OneUnit ty (s ++ t) := by
  intro c hc
  rcases List.mem_append.1 hc with h | h
  · exact hs c h
  · exact ht c h

private theorem one_cycle {ty : StrTy} {b : List Char} (h : OneUnit ty b) (hb : 0 < b.length) (m : Nat) : OneUnit ty (cycle b m) := by
  intro c hc
  obtain ⟨i, _, rfl⟩ := List.mem_map.1 hc
  have hi : i % b.length < b.length := Nat.mod_lt _ hb
  rw [List.getD_eq_getElem?_getD, List.getElem?_eq_getElem hi]
  exact h _ (List.getElem_mem hi)

/-- Base text, another text, base text again from a place that is overwritten already. -/
private theorem write_repeats (ty : StrTy) (a b : List Char) (tail : List Nat) (n s : Nat) (oa : OneUnit ty a) (ob : OneUnit ty b) (hn : n ≤ s)
    (hsb : s < n + b.length) (hsa : s ≤ a.length) :
    (lazyOf ty).write [⟨.self 0 (ty.units a).length, 0, some n⟩, ⟨.other (ty.units b), 0, none⟩, ⟨.self 0 (ty.units a).length, s, none⟩]
      (ty.units a ++ 0 :: tail) =
    store (ty.units a ++ 0 :: tail) (ty.units (a.take n ++ b.take (s - n) ++
      cycle (b.drop (s - n)) (n + b.length - s + (a.length - s)))) := by
  have op : OneUnit ty (a.take n) := one_sublist oa (List.take_sublist ..)
  have opb : OneUnit ty (a.take n ++ b) := one_append op ob
  have lp : (ty.units (a.take n)).length = n := by rw [one_length op, List.length_take]; omega
  have lb := one_length ob
  have la := one_length oa
  have hd : (b.drop (s - n)).length = n + b.length - s := by rw [List.length_drop]; omega
  have hd0 : 0 < (b.drop (s - n)).length := by omega
  have hres : extend (n + b.length - s) (a.length - s) (a.take n ++ b) =
      a.take n ++ b.take (s - n) ++ cycle (b.drop (s - n)) (n + b.length - s + (a.length - s)) := by
    have := extend_cycle (a.take n ++ b.take (s - n)) (b.drop (s - n)) _ (a.length - s) hd0 (Nat.le_refl _)
    rwa [cycle_self, List.append_assoc, List.take_append_drop, hd] at this
  have ocyc := one_cycle (one_sublist ob (List.drop_sublist (s - n) b)) hd0 (n + b.length - s + (a.length - s))
  have lres : (ty.units (a.take n ++ b.take (s - n) ++ cycle (b.drop (s - n)) (n + b.length - s + (a.length - s)))).length =
      n + b.length + (a.length - s) := by
    rw [one_length (one_append (one_append op (one_sublist ob (List.take_sublist ..))) ocyc)]
    simp only [cycle, List.length_append, List.length_take, List.length_map, List.length_range]; omega
  unfold LazyCodec.write LazyCodec.encode
  rw [List.foldlM_cons, run_first, Res.bind_ok, List.foldlM_cons]
  simp only [limited, List.drop_zero]
  have h2 := run_text ty ((ty.units b).length + 1) b 0 none
    ⟨ty.units (a.take n), (ty.units a ++ 0 :: tail).drop (ty.units (a.take n)).length⟩ (by omega)
  rw [show (⟨.other (ty.units b), 0, none⟩ : Stage).size = (ty.units b).length from rfl, h2]
  simp only [limited, List.drop_zero, List.length_drop, List.drop_drop, lp, lb]
  by_cases hroom : b.length ≤ (ty.units a ++ 0 :: tail).length - n
  · rw [if_pos hroom, Res.bind_ok, List.foldlM_cons]
    have hstep : Stage.run (lazyOf ty) (a.length - 0 + 1) ⟨.self 0 a.length, s, none⟩
        (toVar ⟨ty.units (a.take n) ++ ty.units b, (ty.units a ++ 0 :: tail).drop (n + b.length)⟩) =
        if a.length - (0 + s) ≤ ((ty.units a ++ 0 :: tail).drop (n + b.length)).length then
          .ok (toVar ⟨ty.units (extend (n + b.length - s) (a.length - (0 + s)) (a.take n ++ b)),
            ((ty.units a ++ 0 :: tail).drop (n + b.length)).drop (a.length - (0 + s))⟩) else .ub := by
      have ht : (a.take n ++ b).take s = a.take n ++ b.take (s - n) := by
        rw [List.take_append, List.take_of_length_le (by rw [List.length_take]; omega), List.length_take, Nat.min_eq_left (by omega)]
      have ot : OneUnit ty ((a.take n ++ b).take s) := one_sublist opb (List.take_sublist ..)
      have lt : ((a.take n ++ b).take s).length = s := by rw [List.length_take, List.length_append, List.length_take]; omega
      have hs := run_skip ty (a.length - s + 1) ((a.take n ++ b).take s) ot 0 a.length none (by simp)
        (toVar ⟨ty.units (a.take n) ++ ty.units b, (ty.units a ++ 0 :: tail).drop (n + b.length)⟩)
        ((ty.units ((a.take n ++ b).drop s) ++ (ty.units a ++ 0 :: tail).drop (n + b.length)).take (a.length - s))
        (by
          dsimp only [toVar]
          rw [List.drop_zero, ← units_append]
          conv => lhs; rw [← List.take_append_drop s (a.take n ++ b), units_append, List.append_assoc]
          rw [List.take_append, one_length ot, lt, List.take_of_length_le (by rw [one_length ot, lt]; exact hsa)])
      rw [lt] at hs
      rw [show a.length - 0 + 1 = a.length - s + 1 + s by omega]
      refine hs.trans ?_
      rw [← units_append]
      exact run_repeat ty _ _ _ _ _ (n + b.length - s) (by omega) (by simp; omega) (by omega)
        (by simp only [List.length_append, List.length_drop, List.length_take] at *; omega) opb (by omega)
    rw [show (⟨.self 0 (ty.units a).length, s, none⟩ : Stage).size = (ty.units a).length - 0 from rfl, la, hstep]
    simp only [Nat.zero_add, List.length_drop, hres]
    by_cases hfit : a.length - s ≤ (ty.units a ++ 0 :: tail).length - (n + b.length)
    · rw [if_pos hfit]
      simp only [List.foldlM_nil, Res.bind_ok, Res.pure_eq, List.drop_drop]
      rw [← lres]
      exact finish _ _ (by omega)
    · rw [if_neg hfit]
      unfold store
      rw [if_neg (by omega)]; rfl
  · rw [if_neg hroom]
    unfold store
    rw [if_neg (by omega)]; rfl

/-- INSERT into the text itself, for characters of one unit: what is put in is repeated over everything behind the position. -/
theorem C143_insert_repeats (ty : StrTy) (mem memb : List Nat) (a b : List Char) (P : Int) (ha : Holds mem (ty.units a))
    (hb : Holds memb (ty.units b)) (hlen : a.length < 2 ^ 31) (hP : IntTy.i32.InRange P) (hb0 : b ≠ []) (h1 : OneUnit ty (a ++ b)) :
    insertOver (lazyOf ty) mem .self (.other (some memb)) P =
      if 0 ≤ P ∧ P ≤ a.length then store mem (ty.units (a.take P.toNat ++ cycle b (b.length + (a.length - P.toNat)))) else .panic := by
  have hbP := i32_bounds hP
  unfold insertOver
  rw [open_self ty ha, Res.bind_ok]
  dsimp only
  rw [asI32_small hlen]
  by_cases h0 : P < 0 ∨ P > a.length
  · rw [if_pos (by simp only [Bool.or_eq_true, decide_eq_true_eq]; exact h0), if_neg (by omega)]
  rw [if_neg (by simp only [Bool.or_eq_true, decide_eq_true_eq]; exact h0), if_pos (by omega), open_text ty mem hb, Res.bind_ok,
    asUsize_nonneg (by omega) (by omega)]
  obtain ⟨_, tail, rfl⟩ := ha
  have hb1 : 0 < b.length := List.length_pos_iff.2 hb0
  have := write_repeats ty a b tail P.toNat P.toNat (one_sublist h1 (List.sublist_append_left ..)) (one_sublist h1 (List.sublist_append_right ..))
    (Nat.le_refl _) (by omega) (by omega)
  rw [Nat.sub_self, List.take_zero, List.append_nil, List.drop_zero, show P.toNat + b.length - P.toNat = b.length by omega] at this
  exact this

/-- REPLACE in the text itself, for characters of one unit, if more is put in than taken out: the part of the new text that is too long is
repeated over everything behind it. -/
theorem C143_replace_repeats (p : Profile) (ty : StrTy) (mem memb : List Nat) (a b : List Char) (L P : Int) (ha : Holds mem (ty.units a))
    (hb : Holds memb (ty.units b)) (hlen : a.length < 2 ^ 31) (hL : IntTy.i32.InRange L) (hP : IntTy.i32.InRange P) (hL0 : 0 ≤ L)
    (hbL : L < b.length) (h1 : OneUnit ty (a ++ b)) :
    replaceOver p (lazyOf ty) mem .self (.other (some memb)) L P =
      if 1 ≤ P ∧ P ≤ a.length ∧ P - 1 + L ≤ a.length then
        store mem (ty.units (a.take (P - 1).toNat ++ b.take L.toNat ++
          cycle (b.drop L.toNat) (b.length - L.toNat + (a.length - (P - 1 + L).toNat)))) else .panic := by
  have hb1 := i32_bounds hL
  have hb2 := i32_bounds hP
  unfold replaceOver
  rw [open_self ty ha, Res.bind_ok]
  dsimp only
  rw [asI32_small hlen]
  by_cases h0 : P < 1 ∨ P > a.length
  · rw [if_pos (by simp only [Bool.or_eq_true, decide_eq_true_eq]; exact h0), if_neg (by omega)]
  rw [if_neg (by simp only [Bool.or_eq_true, decide_eq_true_eq]; exact h0), asUsize_nonneg (x := P - 1) (by omega) (by omega),
    asUsize_nonneg (x := L) (by omega) (by omega), arith_u64 p (by omega) (by omega), Res.bind_ok]
  by_cases h2 : ((L.toNat : Int) + ((P - 1).toNat : Int)) > a.length
  · rw [if_pos h2, if_neg (by omega)]
  rw [if_neg h2, if_pos (by omega), open_text ty mem hb, Res.bind_ok]
  dsimp only
  rw [show (((L.toNat : Int) + ((P - 1).toNat : Int))).toNat = (P - 1 + L).toNat by omega]
  obtain ⟨_, tail, rfl⟩ := ha
  have := write_repeats ty a b tail (P - 1).toNat (P - 1 + L).toNat (one_sublist h1 (List.sublist_append_left ..))
    (one_sublist h1 (List.sublist_append_right ..)) (by omega) (by omega) (by omega)
  rw [show (P - 1 + L).toNat - (P - 1).toNat = L.toNat by omega,
    show (P - 1).toNat + b.length - (P - 1 + L).toNat = b.length - L.toNat by omega] at this
  exact this

/-! #### The destination as the second text -/

/-- A part of another text, the variable itself, another part of the other text. -/
private theorem write_around (ty : StrTy) (a b : List Char) (tail : List Nat) (n s : Nat) (oa : OneUnit ty a) (ob : OneUnit ty b) (hn : n ≤ a.length) :
    (lazyOf ty).write [⟨.other (ty.units a), 0, some n⟩, ⟨.self 0 (ty.units b).length, 0, none⟩, ⟨.other (ty.units a), s, none⟩]
      (ty.units b ++ 0 :: tail) =
    store (ty.units b ++ 0 :: tail) (ty.units ((if n = 0 then b else cycle (a.take n) (n + b.length)) ++ a.drop s)) := by
  have op : OneUnit ty (a.take n) := one_sublist oa (List.take_sublist ..)
  have lp : (ty.units (a.take n)).length = n := by rw [one_length op, List.length_take]; omega
  have lt : (a.take n).length = n := by rw [List.length_take]; omega
  have lb := one_length ob
  have ls := one_length (one_sublist oa (List.drop_sublist s a))
  have last : ∀ out : List Char, (ty.units out).length ≤ (ty.units b ++ 0 :: tail).length →
      (((Stage.run (lazyOf ty) ((ty.units a).length + 1) ⟨.other (ty.units a), s, none⟩
        (toVar ⟨ty.units out, (ty.units b ++ 0 :: tail).drop (ty.units out).length⟩) >>= fun v => pure v) >>= fun v => v.terminate) >>=
          fun v => pure v.mem) =
      store (ty.units b ++ 0 :: tail) (ty.units (out ++ a.drop s)) := by
    intro out ho
    have h3 := run_text ty ((ty.units a).length + 1) a s none ⟨ty.units out, (ty.units b ++ 0 :: tail).drop (ty.units out).length⟩ (by omega)
    rw [h3, units_append]
    split
    · rename_i h
      simp only [limited, List.length_drop] at h
      simp only [Res.bind_ok, Res.pure_eq, List.drop_drop, limited]
      rw [← List.length_append]
      exact finish _ _ (by rw [List.length_append (as := ty.units out)]; omega)
    · rename_i h
      simp only [limited, List.length_drop] at h
      unfold store
      rw [if_neg (by rw [List.length_append (as := ty.units out)]; omega)]; rfl
  unfold LazyCodec.write LazyCodec.encode
  rw [List.foldlM_cons]
  have h1 := run_text ty ((ty.units a).length + 1) a 0 (some n) ⟨[], ty.units b ++ 0 :: tail⟩ (by omega)
  simp only [limited, List.drop_zero, List.nil_append, lp] at h1
  rw [show (⟨.other (ty.units a), 0, some n⟩ : Stage).size = (ty.units a).length from rfl,
    show (⟨ty.units b ++ 0 :: tail, 0⟩ : Var) = toVar ⟨[], ty.units b ++ 0 :: tail⟩ from rfl, h1]
  by_cases hroom : n ≤ (ty.units b ++ 0 :: tail).length
  · rw [if_pos hroom, Res.bind_ok, List.foldlM_cons]
    by_cases hn0 : n = 0
    · subst hn0
      rw [if_pos rfl, List.take_zero, units_nil, List.drop_zero]
      rw [show toVar ⟨[], ty.units b ++ 0 :: tail⟩ = ⟨ty.units b ++ 0 :: tail, 0⟩ from rfl, run_first, Res.bind_ok, List.foldlM_cons]
      simp only [limited, List.drop_zero, List.foldlM_nil]
      exact last b (by simp)
    · rw [if_neg hn0]
      have h2 := run_repeat ty (b.length + 1) (a.take n) ((ty.units b ++ 0 :: tail).drop n) 0 b.length n (by omega) (by omega) (by omega)
        (by simp only [List.length_append, List.length_drop, List.length_take] at *; omega) op (by omega)
      rw [show (⟨.self 0 (ty.units b).length, 0, none⟩ : Stage).size = (ty.units b).length from rfl, lb, h2, Nat.sub_zero, List.length_drop,
        List.drop_drop]
      have hres : extend n b.length (a.take n) = cycle (a.take n) (n + b.length) := by
        have := extend_cycle [] (a.take n) _ b.length (by omega) (Nat.le_refl _)
        rwa [cycle_self, List.nil_append, List.nil_append, lt] at this
      have lres : (ty.units (cycle (a.take n) (n + b.length))).length = n + b.length := by
        rw [one_length (one_cycle op (by omega) _)]; simp [cycle]
      rw [hres]
      by_cases hfit : b.length ≤ (ty.units b ++ 0 :: tail).length - n
      · rw [if_pos hfit, Res.bind_ok, List.foldlM_cons]
        simp only [List.foldlM_nil]
        have := last (cycle (a.take n) (n + b.length)) (by omega)
        rw [lres] at this
        exact this
      · rw [if_neg hfit]
        unfold store
        rw [if_neg (by rw [units_append, List.length_append, lres]; omega)]; rfl
  · rw [if_neg hroom]
    unfold store
    rw [if_neg (by
      rw [if_neg (by omega), units_append, List.length_append, one_length (one_cycle op (by omega) _)]
      simp only [cycle, List.length_map, List.length_range]; omega)]
    rfl

/-- INSERT of the destination into another text, for characters of one unit: right in front of its first character; behind character `P` the
destination has been overwritten when it is read, and the first `P` characters are repeated in its place. -/
theorem C143_insert_of_self (ty : StrTy) (mem mema : List Nat) (a b : List Char) (P : Int) (ha : Holds mema (ty.units a))
    (hb : Holds mem (ty.units b)) (hlen : a.length < 2 ^ 31) (hP : IntTy.i32.InRange P) (h1 : OneUnit ty (a ++ b)) :
    insertOver (lazyOf ty) mem (.other (some mema)) .self P =
      if 0 ≤ P ∧ P ≤ a.length then
        store mem (ty.units ((if P = 0 then b else cycle (a.take P.toNat) (P.toNat + b.length)) ++ a.drop P.toNat)) else .panic := by
  have hbP := i32_bounds hP
  unfold insertOver
  rw [open_text ty mem ha, Res.bind_ok]
  dsimp only
  rw [asI32_small hlen]
  by_cases h0 : P < 0 ∨ P > a.length
  · rw [if_pos (by simp only [Bool.or_eq_true, decide_eq_true_eq]; exact h0), if_neg (by omega)]
  rw [if_neg (by simp only [Bool.or_eq_true, decide_eq_true_eq]; exact h0), if_pos (by omega), open_self ty hb, Res.bind_ok,
    asUsize_nonneg (by omega) (by omega)]
  obtain ⟨_, tail, rfl⟩ := hb
  have := write_around ty a b tail P.toNat P.toNat (one_sublist h1 (List.sublist_append_left ..)) (one_sublist h1 (List.sublist_append_right ..)) (by omega)
  simp only [show (P.toNat = 0) = (P = 0) by rw [eq_iff_iff]; omega] at this
  exact this

/-- The same for REPLACE with the destination as the new text. -/
theorem C143_replace_by_self (p : Profile) (ty : StrTy) (mem mema : List Nat) (a b : List Char) (L P : Int) (ha : Holds mema (ty.units a))
    (hb : Holds mem (ty.units b)) (hlen : a.length < 2 ^ 31) (hL : IntTy.i32.InRange L) (hP : IntTy.i32.InRange P) (hL0 : 0 ≤ L)
    (h1 : OneUnit ty (a ++ b)) :
    replaceOver p (lazyOf ty) mem (.other (some mema)) .self L P =
      if 1 ≤ P ∧ P ≤ a.length ∧ P - 1 + L ≤ a.length then
        store mem (ty.units ((if P = 1 then b else cycle (a.take (P - 1).toNat) ((P - 1).toNat + b.length)) ++ a.drop (P - 1 + L).toNat))
      else .panic := by
  have hb1 := i32_bounds hL
  have hb2 := i32_bounds hP
  unfold replaceOver
  rw [open_text ty mem ha, Res.bind_ok]
  dsimp only
  rw [asI32_small hlen]
  by_cases h0 : P < 1 ∨ P > a.length
  · rw [if_pos (by simp only [Bool.or_eq_true, decide_eq_true_eq]; exact h0), if_neg (by omega)]
  rw [if_neg (by simp only [Bool.or_eq_true, decide_eq_true_eq]; exact h0), asUsize_nonneg (x := P - 1) (by omega) (by omega),
    asUsize_nonneg (x := L) (by omega) (by omega), arith_u64 p (by omega) (by omega), Res.bind_ok]
  by_cases h2 : ((L.toNat : Int) + ((P - 1).toNat : Int)) > a.length
  · rw [if_pos h2, if_neg (by omega)]
  rw [if_neg h2, if_pos (by omega), open_self ty hb, Res.bind_ok]
  dsimp only
  rw [show (((L.toNat : Int) + ((P - 1).toNat : Int))).toNat = (P - 1 + L).toNat by omega]
  obtain ⟨_, tail, rfl⟩ := hb
  have := write_around ty a b tail (P - 1).toNat (P - 1 + L).toNat (one_sublist h1 (List.sublist_append_left ..))
    (one_sublist h1 (List.sublist_append_right ..)) (by omega)
  simp only [show ((P - 1).toNat = 0) = (P = 1) by rw [eq_iff_iff]; omega] at this
  exact this

/-! #### Negative lengths, and the destination as both texts -/

/-- The rest of the destination from character `s` on, which lies in front of the cursor. -/
private theorem run_back (ty : StrTy) (T : List Char) (room : List Nat) (s e : Nat) (oT : OneUnit ty T) (hs : s < T.length) (he : s ≤ e)
    (hm : e ≤ T.length + room.length) :
    Stage.run (lazyOf ty) (e + 1) ⟨.self 0 e, s, none⟩ (toVar ⟨ty.units T, room⟩) =
      if e - s ≤ room.length then .ok (toVar ⟨ty.units (T.take s ++ cycle (T.drop s) (T.length - s + (e - s))), room.drop (e - s)⟩) else .ub := by
  have ot : OneUnit ty (T.take s) := one_sublist oT (List.take_sublist ..)
  have lt : (T.take s).length = s := by rw [List.length_take]; omega
  have hsk := run_skip ty (e - s + 1) (T.take s) ot 0 e none (by simp) (toVar ⟨ty.units T, room⟩)
    ((ty.units (T.drop s) ++ room).take (e - s)) (by
      dsimp only [toVar]
      rw [List.drop_zero]
      conv => lhs; rw [← List.take_append_drop s T, units_append, List.append_assoc]
      rw [List.take_append, one_length ot, lt, List.take_of_length_le (by rw [one_length ot, lt]; exact he)])
  rw [lt] at hsk
  rw [show e + 1 = e - s + 1 + s by omega]
  refine hsk.trans ?_
  rw [Nat.zero_add]
  have hd : (T.drop s).length = T.length - s := List.length_drop
  have hres : extend (T.length - s) (e - s) T = T.take s ++ cycle (T.drop s) (T.length - s + (e - s)) := by
    have := extend_cycle (T.take s) (T.drop s) _ (e - s) (by omega) (Nat.le_refl _)
    rwa [cycle_self, List.take_append_drop, hd] at this
  rw [run_repeat ty _ T room s e (T.length - s) (by omega) (by omega) he hm oT (by omega), hres]

private theorem one_back {ty : StrTy} {T : List Char} (oT : OneUnit ty T) (s m : Nat) (hs : s < T.length) :
    OneUnit ty (T.take s ++ cycle (T.drop s) m) :=
  one_append (one_sublist oT (List.take_sublist ..)) (one_cycle (one_sublist oT (List.drop_sublist ..)) (by rw [List.length_drop]; omega) m)

/-- The last stage and the terminator. -/
private theorem last_back (ty : StrTy) (mem : List Nat) (T : List Char) (s e : Nat) (oT : OneUnit ty T) (hs : s < T.length) (he : s ≤ e)
    (hT : T.length ≤ mem.length) (hm : e ≤ mem.length) :
    ((([(⟨.self 0 e, s, none⟩ : Stage)].foldlM (fun v s => s.run (lazyOf ty) (s.size + 1) v) (toVar ⟨ty.units T, mem.drop T.length⟩)) >>=
      fun v => v.terminate) >>= fun v => pure v.mem) =
      store mem (ty.units (T.take s ++ cycle (T.drop s) (T.length - s + (e - s)))) := by
  rw [List.foldlM_cons, show (⟨.self 0 e, s, none⟩ : Stage).size = e from rfl,
    run_back ty T _ s e oT hs he (by rw [List.length_drop]; omega), List.length_drop, List.drop_drop]
  have lres : (ty.units (T.take s ++ cycle (T.drop s) (T.length - s + (e - s)))).length = T.length + (e - s) := by
    rw [one_length (one_back oT _ _ hs)]; simp [cycle]; omega
  split
  · simp only [List.foldlM_nil, Res.bind_ok, Res.pure_eq]
    rw [← lres]
    exact finish _ _ (by omega)
  · unfold store
    rw [if_neg (by omega)]; rfl

/-- The first `n` characters of the destination and then the rest from a place further in front. -/
private theorem write_two_back (ty : StrTy) (a : List Char) (tail : List Nat) (n s : Nat) (oa : OneUnit ty a) (hn : n ≤ a.length) (hs : s < n) :
    (lazyOf ty).write [⟨.self 0 (ty.units a).length, 0, some n⟩, ⟨.self 0 (ty.units a).length, s, none⟩] (ty.units a ++ 0 :: tail) =
      store (ty.units a ++ 0 :: tail) (ty.units (a.take s ++ cycle ((a.drop s).take (n - s)) (n - s + (a.length - s)))) := by
  have op : OneUnit ty (a.take n) := one_sublist oa (List.take_sublist ..)
  have lt : (a.take n).length = n := by rw [List.length_take]; omega
  unfold LazyCodec.write LazyCodec.encode
  rw [List.foldlM_cons, run_first, Res.bind_ok]
  simp only [limited, List.drop_zero]
  rw [one_length op, one_length oa]
  have := last_back ty (ty.units a ++ 0 :: tail) (a.take n) s a.length op (by omega) (by omega)
    (by rw [List.length_append, one_length oa]; omega) (by rw [List.length_append, one_length oa]; omega)
  rw [List.take_take, Nat.min_eq_left (by omega), List.drop_take, lt] at this
  rw [lt]
  exact this

/-- Base text, another text, base text from any place in front of the cursor. -/
private theorem write_three_back (ty : StrTy) (a b : List Char) (tail : List Nat) (n s : Nat) (oa : OneUnit ty a) (ob : OneUnit ty b) (hn : n ≤ a.length)
    (hs : s < n) :
    (lazyOf ty).write [⟨.self 0 (ty.units a).length, 0, some n⟩, ⟨.other (ty.units b), 0, none⟩, ⟨.self 0 (ty.units a).length, s, none⟩]
      (ty.units a ++ 0 :: tail) =
    store (ty.units a ++ 0 :: tail) (ty.units (a.take s ++ cycle ((a.drop s).take (n - s) ++ b) (n - s + b.length + (a.length - s)))) := by
  have op : OneUnit ty (a.take n) := one_sublist oa (List.take_sublist ..)
  have opb : OneUnit ty (a.take n ++ b) := one_append op ob
  have lt : (a.take n).length = n := by rw [List.length_take]; omega
  have lb := one_length ob
  unfold LazyCodec.write LazyCodec.encode
  rw [List.foldlM_cons, run_first, Res.bind_ok, List.foldlM_cons]
  simp only [limited, List.drop_zero]
  have h2 := run_text ty ((ty.units b).length + 1) b 0 none
    ⟨ty.units (a.take n), (ty.units a ++ 0 :: tail).drop (ty.units (a.take n)).length⟩ (by omega)
  rw [show (⟨.other (ty.units b), 0, none⟩ : Stage).size = (ty.units b).length from rfl, h2]
  simp only [limited, List.drop_zero, List.length_drop, List.drop_drop, one_length op, lt, lb]
  have hT : (a.take n ++ b).take s = a.take s := by
    rw [List.take_append_of_le_length (by omega), List.take_take, Nat.min_eq_left (by omega)]
  have hD : (a.take n ++ b).drop s = (a.drop s).take (n - s) ++ b := by
    rw [List.drop_append_of_le_length (by omega), List.drop_take]
  have hL : (a.take n ++ b).length = n + b.length := by rw [List.length_append, lt]
  by_cases hroom : b.length ≤ (ty.units a ++ 0 :: tail).length - n
  · rw [if_pos hroom, Res.bind_ok]
    have := last_back ty (ty.units a ++ 0 :: tail) (a.take n ++ b) s a.length opb (by omega) (by omega)
      (by rw [hL]; rw [List.length_append, one_length oa] at *; simp only [List.length_cons] at *; omega)
      (by rw [List.length_append, one_length oa]; omega)
    rw [hT, hD, hL, show n + b.length - s = n - s + b.length by omega, units_append ty (a.take n) b] at this
    rw [one_length oa]
    exact this
  · rw [if_neg hroom]
    unfold store
    rw [if_neg (by
      have := one_length (one_back opb s (n - s + b.length + (a.length - s)) (by omega))
      rw [hT, hD] at this
      rw [this]; simp [cycle]; simp at hroom; omega)]; rfl

private theorem cycle_take (b : List Char) (m k : Nat) (h : k ≤ m) : (cycle b m).take k = cycle b k := by
  unfold cycle
  rw [← List.map_take, List.take_range, Nat.min_eq_left h]

private theorem cycle_length (b : List Char) (m : Nat) : (cycle b m).length = m := by simp [cycle]

/-- A piece repeated less than once more. -/
private theorem cycle_short (b : List Char) (k : Nat) (_ : 0 < b.length) (h : k ≤ b.length) : cycle b (b.length + k) = b ++ b.take k := by
  apply List.ext_getElem
  · simp [cycle]; omega
  · intro i h1 h2
    rw [cycle_length] at h1
    by_cases hi : i < b.length
    · simp [cycle, Nat.mod_eq_of_lt hi, List.getElem_append_left hi, List.getElem?_eq_getElem hi]
    · have : i % b.length = i - b.length := by rw [Nat.mod_eq_sub_mod (by omega), Nat.mod_eq_of_lt (by omega)]
      rw [List.getElem_append_right (by omega)]
      simp [cycle, this, List.getElem?_eq_getElem (show i - b.length < b.length by omega)]

/-- The destination, the destination, the destination. -/
private theorem write_self_self (ty : StrTy) (a : List Char) (tail : List Nat) (n s : Nat) (oa : OneUnit ty a) (hn : n ≤ a.length) (hs : s ≤ a.length) :
    (lazyOf ty).write [⟨.self 0 (ty.units a).length, 0, some n⟩, ⟨.self 0 (ty.units a).length, 0, none⟩, ⟨.self 0 (ty.units a).length, s, none⟩]
      (ty.units a ++ 0 :: tail) =
    store (ty.units a ++ 0 :: tail) (ty.units (if n = 0 then a ++ a.drop s
      else cycle (a.take n) (n + a.length) ++ (cycle (a.take n) a.length).drop s)) := by
  have op : OneUnit ty (a.take n) := one_sublist oa (List.take_sublist ..)
  have lt : (a.take n).length = n := by rw [List.length_take]; omega
  have la := one_length oa
  have hmem : (ty.units a ++ 0 :: tail).length = a.length + 1 + tail.length := by rw [List.length_append, la, List.length_cons]; omega
  unfold LazyCodec.write LazyCodec.encode
  rw [List.foldlM_cons, run_first, Res.bind_ok]
  simp only [limited, List.drop_zero]
  by_cases hn0 : n = 0
  · subst hn0
    rw [if_pos rfl, List.take_zero, units_nil, List.length_nil, List.drop_zero,
      show toVar ⟨[], ty.units a ++ 0 :: tail⟩ = ⟨ty.units a ++ 0 :: tail, 0⟩ from rfl, List.foldlM_cons, run_first, Res.bind_ok]
    simp only [limited, List.drop_zero, la]
    by_cases hsa : s = a.length
    · subst hsa
      rw [List.drop_length, List.append_nil, List.foldlM_cons,
        run_behind ty _ (ty.units a) a.length none 0 a.length ⟨ty.units a, (ty.units a ++ 0 :: tail).drop a.length⟩ (by simp [← la]) (by simp [la]),
        run_text ty _ a a.length none _ (by rw [la]; show _ < a.length - 0 + 1; omega)]
      simp only [limited, List.drop_length, units_nil, List.length_nil, Nat.zero_le, if_true, List.append_nil, List.drop_zero, Res.bind_ok,
        List.foldlM_nil, Res.pure_eq]
      rw [← la]
      exact finish _ _ (by rw [hmem, la]; omega)
    · have := last_back ty (ty.units a ++ 0 :: tail) a s a.length oa (by omega) (by omega) (by omega) (by omega)
      rw [show a.length - s + (a.length - s) = (a.drop s).length + (a.length - s) by rw [List.length_drop],
        cycle_short _ _ (by rw [List.length_drop]; omega) (by rw [List.length_drop]), ← List.append_assoc, List.take_append_drop,
        List.take_of_length_le (by rw [List.length_drop])] at this
      exact this
  · rw [if_neg hn0, List.foldlM_cons, show (⟨.self 0 (ty.units a).length, 0, none⟩ : Stage).size = (ty.units a).length from rfl, la, one_length op, lt,
      run_back ty (a.take n) _ 0 a.length op (by omega) (by omega) (by rw [List.length_drop]; omega), List.length_drop, List.drop_drop]
    simp only [List.take_zero, List.nil_append, List.drop_zero, Nat.sub_zero, lt]
    have oc : OneUnit ty (cycle (a.take n) (n + a.length)) := one_cycle op (by omega) _
    have lc : (cycle (a.take n) (n + a.length)).length = n + a.length := cycle_length ..
    split
    · rw [Res.bind_ok]
      have := last_back ty (ty.units a ++ 0 :: tail) (cycle (a.take n) (n + a.length)) s a.length oc (by omega) hs (by omega) (by omega)
      have hd : ((cycle (a.take n) (n + a.length)).drop s).length = n + a.length - s := by rw [List.length_drop, lc]
      rw [lc, ← hd, cycle_short _ _ (by omega) (by omega), ← List.append_assoc, List.take_append_drop, ← List.drop_take,
        cycle_take _ _ _ (by omega)] at this
      exact this
    · unfold store
      rw [if_neg (by rw [units_append, List.length_append, one_length oc, lc]; omega)]; rfl

/-- DELETE in the text itself with a negative length, for characters of one unit: like into a separate destination (C47) it panics, except in a release
build if the piece doubled lies within the text; there, this piece is repeated over everything behind it. -/
theorem C143_delete_negative (p : Profile) (ty : StrTy) (mem : List Nat) (t : List Char) (L P : Int) (h : Holds mem (ty.units t))
    (hlen : t.length < 2 ^ 31) (hL : IntTy.i32.InRange L) (hP : IntTy.i32.InRange P) (hL0 : L < 0) (h1 : OneUnit ty t) :
    deleteOver p (lazyOf ty) mem .self L P =
      if p = .release ∧ 1 ≤ P + L ∧ P ≤ t.length then
        store mem (ty.units (t.take (P - 1 + L).toNat ++
          cycle ((t.drop (P - 1 + L).toNat).take (-L).toNat) ((-L).toNat + (t.length - (P - 1 + L).toNat))))
      else .panic := by
  have hbL := i32_bounds hL
  have hbP := i32_bounds hP
  unfold deleteOver
  rw [open_self ty h, Res.bind_ok]
  dsimp only
  rw [asI32_small hlen]
  by_cases h0 : P < 1 ∨ P > t.length
  · rw [if_pos (by simp only [Bool.or_eq_true, decide_eq_true_eq]; exact h0), if_neg (by omega)]
  rw [if_neg (by simp only [Bool.or_eq_true, decide_eq_true_eq]; exact h0), asUsize_nonneg (x := P) (by omega) (by omega),
    arith_u64_neg hbL.1 hL0 (by omega) p]
  by_cases h2 : ((P.toNat - 1 : Nat) : Int) < -L
  · rw [if_pos h2, Res.bind_ok, if_pos (by omega), if_neg (by omega)]
  rw [if_neg h2]
  cases p
  · simp
  rw [Res.bind_ok, if_neg (by omega), if_pos ⟨rfl, by omega, by omega⟩]
  obtain ⟨_, tail, rfl⟩ := h
  have := write_two_back ty t tail (P.toNat - 1) (P - 1 + L).toNat h1 (by omega) (by omega)
  rw [show P.toNat - 1 - (P - 1 + L).toNat = (-L).toNat by omega] at this
  rw [show (L + ((P.toNat - 1 : Nat) : Int)).toNat = (P - 1 + L).toNat by omega]
  exact this

/-- DELETE in the text itself is DELETE into a separate destination with the same contents, for all texts and numbers, unless the build is a release build,
the length is negative and the piece doubled lies within the text. -/
theorem C143_delete_partial (p : Profile) (ty : StrTy) (mem : List Nat) (t : List Char) (L P : Int) (h : Holds mem (ty.units t))
    (hlen : t.length < 2 ^ 31) (hL : IntTy.i32.InRange L) (hP : IntTy.i32.InRange P)
    (hx : ¬ (p = .release ∧ L < 0 ∧ 1 ≤ P + L ∧ P ≤ t.length)) :
    deleteOver p (lazyOf ty) mem .self L P = delete p (codecOf ty) (some mem) L P (some mem) := by
  by_cases hL0 : 0 ≤ L
  · rw [C143_delete p ty mem t L P h hlen hL hP hL0, C46_delete p ty mem mem t L P h hlen hL hP hL0]
  have hbL := i32_bounds hL
  have hbP := i32_bounds hP
  rw [C47_delete_partial p ty mem mem t L P h hlen hL hP (by omega), if_neg (fun hc => hx ⟨hc.1, by omega, hc.2⟩)]
  unfold deleteOver
  rw [open_self ty h, Res.bind_ok]
  dsimp only
  rw [asI32_small hlen]
  by_cases h0 : P < 1 ∨ P > t.length
  · rw [if_pos (by simp only [Bool.or_eq_true, decide_eq_true_eq]; exact h0)]
  rw [if_neg (by simp only [Bool.or_eq_true, decide_eq_true_eq]; exact h0), asUsize_nonneg (x := P) (by omega) (by omega),
    arith_u64_neg hbL.1 (by omega) (by omega) p]
  by_cases h2 : ((P.toNat - 1 : Nat) : Int) < -L
  · rw [if_pos h2, Res.bind_ok, if_pos (by omega)]
  rw [if_neg h2]
  cases p
  · rfl
  · exact absurd ⟨rfl, by omega, by omega, by omega⟩ hx

/-- REPLACE in the text itself with a negative length: the same with the new text behind the piece. -/
theorem C143_replace_negative (p : Profile) (ty : StrTy) (mem memb : List Nat) (a b : List Char) (L P : Int) (ha : Holds mem (ty.units a))
    (hb : Holds memb (ty.units b)) (hlen : a.length < 2 ^ 31) (hL : IntTy.i32.InRange L) (hP : IntTy.i32.InRange P) (hL0 : L < 0)
    (h1 : OneUnit ty (a ++ b)) :
    replaceOver p (lazyOf ty) mem .self (.other (some memb)) L P =
      if p = .release ∧ 1 ≤ P + L ∧ P ≤ a.length then
        store mem (ty.units (a.take (P - 1 + L).toNat ++
          cycle ((a.drop (P - 1 + L).toNat).take (-L).toNat ++ b) ((-L).toNat + b.length + (a.length - (P - 1 + L).toNat))))
      else .panic := by
  have hbL := i32_bounds hL
  have hbP := i32_bounds hP
  unfold replaceOver
  rw [open_self ty ha, Res.bind_ok]
  dsimp only
  rw [asI32_small hlen]
  by_cases h0 : P < 1 ∨ P > a.length
  · rw [if_pos (by simp only [Bool.or_eq_true, decide_eq_true_eq]; exact h0), if_neg (by omega)]
  rw [if_neg (by simp only [Bool.or_eq_true, decide_eq_true_eq]; exact h0), asUsize_nonneg (x := P - 1) (by omega) (by omega),
    arith_u64_neg hbL.1 hL0 (by omega) p]
  by_cases h2 : ((P - 1).toNat : Int) < -L
  · rw [if_pos h2, Res.bind_ok, if_pos (by omega), if_neg (by omega)]
  rw [if_neg h2]
  cases p
  · simp
  rw [Res.bind_ok, if_neg (by omega), if_pos ⟨rfl, by omega, by omega⟩, open_text ty mem hb, Res.bind_ok]
  obtain ⟨_, tail, rfl⟩ := ha
  have := write_three_back ty a b tail (P - 1).toNat (P - 1 + L).toNat (one_sublist h1 (List.sublist_append_left ..))
    (one_sublist h1 (List.sublist_append_right ..)) (by omega) (by omega)
  rw [show (P - 1).toNat - (P - 1 + L).toNat = (-L).toNat by omega] at this
  rw [show (L + ((P - 1).toNat : Int)).toNat = (P - 1 + L).toNat by omega]
  exact this

/-- REPLACE by the destination with a negative length: the first characters are repeated in its place, as in `C143_replace_by_self`. -/
theorem C143_replace_by_self_negative (p : Profile) (ty : StrTy) (mem mema : List Nat) (a b : List Char) (L P : Int) (ha : Holds mema (ty.units a))
    (hb : Holds mem (ty.units b)) (hlen : a.length < 2 ^ 31) (hL : IntTy.i32.InRange L) (hP : IntTy.i32.InRange P) (hL0 : L < 0)
    (h1 : OneUnit ty (a ++ b)) :
    replaceOver p (lazyOf ty) mem (.other (some mema)) .self L P =
      if p = .release ∧ 1 ≤ P + L ∧ P ≤ a.length then
        store mem (ty.units (cycle (a.take (P - 1).toNat) ((P - 1).toNat + b.length) ++ a.drop (P - 1 + L).toNat))
      else .panic := by
  have hbL := i32_bounds hL
  have hbP := i32_bounds hP
  unfold replaceOver
  rw [open_text ty mem ha, Res.bind_ok]
  dsimp only
  rw [asI32_small hlen]
  by_cases h0 : P < 1 ∨ P > a.length
  · rw [if_pos (by simp only [Bool.or_eq_true, decide_eq_true_eq]; exact h0), if_neg (by omega)]
  rw [if_neg (by simp only [Bool.or_eq_true, decide_eq_true_eq]; exact h0), asUsize_nonneg (x := P - 1) (by omega) (by omega),
    arith_u64_neg hbL.1 hL0 (by omega) p]
  by_cases h2 : ((P - 1).toNat : Int) < -L
  · rw [if_pos h2, Res.bind_ok, if_pos (by omega), if_neg (by omega)]
  rw [if_neg h2]
  cases p
  · simp
  rw [Res.bind_ok, if_neg (by omega), if_pos ⟨rfl, by omega, by omega⟩, open_self ty hb, Res.bind_ok]
  obtain ⟨_, tail, rfl⟩ := hb
  have := write_around ty a b tail (P - 1).toNat (P - 1 + L).toNat (one_sublist h1 (List.sublist_append_left ..))
    (one_sublist h1 (List.sublist_append_right ..)) (by omega)
  rw [if_neg (by omega)] at this
  rw [show (L + ((P - 1).toNat : Int)).toNat = (P - 1 + L).toNat by omega]
  exact this

/-- INSERT(s, s, P) into `s`, for characters of one unit: right for `P = 0`; otherwise the first `P` characters are repeated over the whole text,
twice. -/
theorem C143_insert_both (ty : StrTy) (mem : List Nat) (a : List Char) (P : Int) (ha : Holds mem (ty.units a)) (hlen : a.length < 2 ^ 31)
    (hP : IntTy.i32.InRange P) (h1 : OneUnit ty a) :
    insertOver (lazyOf ty) mem .self .self P =
      if 0 ≤ P ∧ P ≤ a.length then
        store mem (ty.units (if P = 0 then a ++ a
          else cycle (a.take P.toNat) (P.toNat + a.length) ++ (cycle (a.take P.toNat) a.length).drop P.toNat)) else .panic := by
  have hbP := i32_bounds hP
  unfold insertOver
  rw [open_self ty ha, Res.bind_ok]
  dsimp only
  rw [asI32_small hlen]
  by_cases h0 : P < 0 ∨ P > a.length
  · rw [if_pos (by simp only [Bool.or_eq_true, decide_eq_true_eq]; exact h0), if_neg (by omega)]
  rw [if_neg (by simp only [Bool.or_eq_true, decide_eq_true_eq]; exact h0), if_pos (by omega), Res.bind_ok, asUsize_nonneg (by omega) (by omega)]
  obtain ⟨_, tail, rfl⟩ := ha
  have := write_self_self ty a tail P.toNat P.toNat h1 (by omega) (by omega)
  by_cases hP0 : P = 0
  · subst hP0; exact this
  · rw [if_neg (by omega)] at this
    rw [if_neg hP0]; exact this

/-- REPLACE(s, s, L, P) into `s`, for characters of one unit and any length. -/
theorem C143_replace_both (p : Profile) (ty : StrTy) (mem : List Nat) (a : List Char) (L P : Int) (ha : Holds mem (ty.units a))
    (hlen : a.length < 2 ^ 31) (hL : IntTy.i32.InRange L) (hP : IntTy.i32.InRange P) (h1 : OneUnit ty a) :
    replaceOver p (lazyOf ty) mem .self .self L P =
      if (0 ≤ L ∨ p = .release) ∧ 1 ≤ P ∧ P ≤ a.length ∧ 0 ≤ P - 1 + L ∧ P - 1 + L ≤ a.length then
        store mem (ty.units (if P = 1 then a ++ a.drop L.toNat
          else cycle (a.take (P - 1).toNat) ((P - 1).toNat + a.length) ++ (cycle (a.take (P - 1).toNat) a.length).drop (P - 1 + L).toNat))
      else .panic := by
  have hbL := i32_bounds hL
  have hbP := i32_bounds hP
  unfold replaceOver
  rw [open_self ty ha, Res.bind_ok]
  dsimp only
  rw [asI32_small hlen]
  by_cases h0 : P < 1 ∨ P > a.length
  · rw [if_pos (by simp only [Bool.or_eq_true, decide_eq_true_eq]; exact h0), if_neg (by omega)]
  rw [if_neg (by simp only [Bool.or_eq_true, decide_eq_true_eq]; exact h0), asUsize_nonneg (x := P - 1) (by omega) (by omega)]
  have fin : 0 ≤ P - 1 + L → P - 1 + L ≤ a.length →
      (lazyOf ty).write [⟨.self 0 (ty.units a).length, 0, some (P - 1).toNat⟩, ⟨.self 0 (ty.units a).length, 0, none⟩,
        ⟨.self 0 (ty.units a).length, (P - 1 + L).toNat, none⟩] mem =
      store mem (ty.units (if P = 1 then a ++ a.drop L.toNat
          else cycle (a.take (P - 1).toNat) ((P - 1).toNat + a.length) ++ (cycle (a.take (P - 1).toNat) a.length).drop (P - 1 + L).toNat)) := by
    intro h2 h3
    obtain ⟨_, tail, rfl⟩ := ha
    have := write_self_self ty a tail (P - 1).toNat (P - 1 + L).toNat h1 (by omega) (by omega)
    by_cases hP1 : P = 1
    · subst hP1
      rw [if_pos (by omega)] at this
      rw [if_pos rfl, this, show ((1 : Int) - 1 + L).toNat = L.toNat by omega]
    · rw [if_neg (by omega)] at this
      rw [if_neg hP1]; exact this
  by_cases hL0 : 0 ≤ L
  · rw [asUsize_nonneg (x := L) (by omega) (by omega), arith_u64 p (by omega) (by omega), Res.bind_ok]
    by_cases h2 : ((L.toNat : Int) + ((P - 1).toNat : Int)) > a.length
    · rw [if_pos h2, if_neg (by omega)]
    rw [if_neg h2, if_pos ⟨.inl hL0, by omega⟩, Res.bind_ok,
      show (((L.toNat : Int) + ((P - 1).toNat : Int))).toNat = (P - 1 + L).toNat by omega]
    exact fin (by omega) (by omega)
  · rw [arith_u64_neg hbL.1 (by omega) (by omega) p]
    by_cases h2 : ((P - 1).toNat : Int) < -L
    · rw [if_pos h2, Res.bind_ok, if_pos (by omega), if_neg (by omega)]
    rw [if_neg h2]
    cases p
    · rw [if_neg (by simp [hL0])]; rfl
    rw [Res.bind_ok, if_neg (by omega), if_pos ⟨.inr rfl, by omega⟩, Res.bind_ok,
      show (L + ((P - 1).toNat : Int)).toNat = (P - 1 + L).toNat by omega]
    exact fin (by omega) (by omega)

example : deleteOver .release lazy8 [97, 98, 99, 0, 0, 0] .self (-1) 3 = .ok [97, 98, 98, 98, 0, 0] := by decide
example : replaceOver .release lazy8 [97, 98, 99, 0, 0, 0, 0] .self (.other (some [88, 0])) (-1) 3 = .ok [97, 98, 88, 98, 88, 0, 0] := by decide
example : replaceOver .release lazy8 [97, 98, 99, 0, 0, 0, 0, 0] (.other (some [88, 89, 90, 0])) .self (-1) 2 =
    .ok [88, 88, 88, 88, 88, 89, 90, 0] := by decide
example : insertOver lazy8 [97, 98, 99, 0, 0, 0, 0] .self .self 0 = .ok [97, 98, 99, 97, 98, 99, 0] := by decide
example : insertOver lazy8 [97, 98, 99, 0, 0, 0, 0] .self .self 1 = .ok [97, 97, 97, 97, 97, 97, 0] := by decide
example : insertOver lazy8 [97, 98, 99, 0, 0, 0, 0] .self .self 2 = .ok [97, 98, 97, 98, 97, 97, 0] := by decide
example : replaceOver .debug lazy8 [97, 98, 99, 0, 0, 0, 0] .self .self 1 1 = .ok [97, 98, 99, 98, 99, 0, 0] := by decide
example : replaceOver .debug lazy8 [97, 98, 99, 0, 0, 0, 0] .self .self 1 2 = .ok [97, 97, 97, 97, 97, 0, 0] := by decide

/-! #### CONCAT -/

/-- What an argument of CONCAT stands for: `none` the destination itself, `some b` the text `b` elsewhere. -/
def Means (ty : StrTy) : List Arg → List (Option (List Char)) → Prop
  | [], [] => True
  | .self :: argv, none :: ts => Means ty argv ts
  | .other p :: argv, some b :: ts => (∃ mem, p = some mem ∧ Holds mem (ty.units b)) ∧ Means ty argv ts
  | _, _ => False

/-- The text after the remaining arguments, when `acc` is written already: the destination as an argument stands for what is written so far. -/
def joined (acc : List Char) : List (Option (List Char)) → List Char
  | [] => acc
  | some b :: ts => joined (acc ++ b) ts
  | none :: ts => joined (acc ++ acc) ts

private theorem joined_prefix (ts : List (Option (List Char))) (acc : List Char) : ∃ l, joined acc ts = acc ++ l := by
  induction ts generalizing acc with
  | nil => exact ⟨[], by simp [joined]⟩
  | cons x ts ih =>
    cases x with
    | none => obtain ⟨l, h⟩ := ih (acc ++ acc); exact ⟨acc ++ l, by rw [joined, h, List.append_assoc]⟩
    | some b => obtain ⟨l, h⟩ := ih (acc ++ b); exact ⟨b ++ l, by rw [joined, h, List.append_assoc]⟩

/-- One more text at the end. -/
private theorem encode_more (ty : StrTy) (w room : List Nat) (b : List Char) (src : Source)
    (h : src = .other (ty.units b) ∨ ∃ e, src = .self 0 e ∧ e ≤ w.length ∧ w.take e = ty.units b) :
    (lazyOf ty).encode [⟨src, 0, none⟩] (toVar ⟨w, room⟩) =
      if (ty.units b).length < room.length then .ok (toVar ⟨w ++ ty.units b, 0 :: room.drop ((ty.units b).length + 1)⟩) else .ub := by
  have hrun : ∀ fuel, (ty.units b).length < fuel → Stage.run (lazyOf ty) fuel ⟨src, 0, none⟩ (toVar ⟨w, room⟩) =
      if (ty.units b).length ≤ room.length then .ok (toVar ⟨w ++ ty.units b, room.drop (ty.units b).length⟩) else .ub := by
    intro fuel hf
    have ht := run_text ty fuel b 0 none ⟨w, room⟩ hf
    simp only [limited, List.drop_zero] at ht
    rcases h with rfl | ⟨e, rfl, he, hw⟩
    · exact ht
    · rw [run_behind ty fuel (ty.units b) 0 none 0 e ⟨w, room⟩ (by rw [List.drop_zero]; exact hw) he]; exact ht
  have hsize : (ty.units b).length < (⟨src, 0, none⟩ : Stage).size + 1 := by
    rcases h with rfl | ⟨e, rfl, he, hw⟩
    · exact Nat.lt_succ_self _
    · show _ < e - 0 + 1
      rw [← hw, List.length_take]; omega
  unfold LazyCodec.encode
  rw [List.foldlM_cons, hrun _ hsize]
  by_cases h1 : (ty.units b).length ≤ room.length
  · rw [if_pos h1]
    simp only [List.foldlM_nil, Res.bind_ok, Res.pure_eq]
    rw [terminate_toVar]
    unfold Dest.terminate
    dsimp only
    by_cases h2 : (ty.units b).length < room.length
    · rw [if_pos h2]
      rw [List.drop_eq_getElem_cons h2]; rfl
    · rw [if_neg h2, List.drop_eq_nil_of_le (by omega)]; rfl
  · rw [if_neg h1, if_neg (by omega)]; rfl

private theorem concat_more (ty : StrTy) (ts : List (Option (List Char))) (argv more : List Arg) (hm : Means ty argv ts) (acc : List Char)
    (hnz : ∀ u ∈ ty.units acc, u ≠ 0) (room : List Nat) :
    concatLoopOver (lazyOf ty) ts.length (argv ++ more) (toVar ⟨ty.units acc, 0 :: room⟩) =
      if (ty.units (joined acc ts)).length < (ty.units acc).length + 1 + room.length then
        .ok (toVar ⟨ty.units (joined acc ts), 0 :: room.drop ((ty.units (joined acc ts)).length - (ty.units acc).length)⟩)
      else .ub := by
  induction ts generalizing argv acc room with
  | nil =>
    cases argv with
    | cons _ _ => simp [Means] at hm
    | nil => rw [List.length_nil, concatLoopOver, joined, if_pos (by omega), Nat.sub_self, List.drop_zero]
  | cons x ts ih =>
    have key : ∀ (b : List Char) (a : Arg) (argv : List Arg) (src : Source) (n : Nat), Means ty argv ts → (∀ u ∈ ty.units b, u ≠ 0) →
        (lazyOf ty).open (toVar ⟨ty.units acc, 0 :: room⟩).mem a = .ok (src, n) →
        (src = .other (ty.units b) ∨ ∃ e, src = .self 0 e ∧ e ≤ (ty.units acc).length ∧ (ty.units acc).take e = ty.units b) →
        concatLoopOver (lazyOf ty) (ts.length + 1) (a :: argv ++ more) (toVar ⟨ty.units acc, 0 :: room⟩) =
        if (ty.units (joined (acc ++ b) ts)).length < (ty.units acc).length + 1 + room.length then
          .ok (toVar ⟨ty.units (joined (acc ++ b) ts), 0 :: room.drop ((ty.units (joined (acc ++ b) ts)).length - (ty.units acc).length)⟩)
        else .ub := by
      intro b a argv src n hm' hb ho hsrc
      rw [List.cons_append, concatLoopOver, ho, Res.bind_ok]
      dsimp only
      rw [encode_more ty _ _ b src hsrc]
      obtain ⟨l, hl⟩ := joined_prefix ts (acc ++ b)
      have hle : (ty.units acc).length + (ty.units b).length ≤ (ty.units (joined (acc ++ b) ts)).length := by
        rw [hl, units_append, units_append]; simp only [List.length_append]; omega
      rw [List.length_cons]
      by_cases h1 : (ty.units b).length < room.length + 1
      · rw [if_pos h1, Res.bind_ok, ← units_append, List.drop_succ_cons,
          ih argv hm' (acc ++ b) (by
            rw [units_append]; intro u hu
            rcases List.mem_append.1 hu with h | h
            · exact hnz u h
            · exact hb u h)]
        have hab : (ty.units (acc ++ b)).length = (ty.units acc).length + (ty.units b).length := by rw [units_append, List.length_append]
        rw [List.length_drop, List.drop_drop, hab]
        by_cases h2 : (ty.units (joined (acc ++ b) ts)).length < (ty.units acc).length + 1 + room.length
        · rw [if_pos h2, if_pos (by omega),
            show (ty.units b).length + ((ty.units (joined (acc ++ b) ts)).length - ((ty.units acc).length + (ty.units b).length)) =
              (ty.units (joined (acc ++ b) ts)).length - (ty.units acc).length by omega]
        · rw [if_neg h2, if_neg (by omega)]
      · rw [if_neg h1, if_neg (by omega)]; rfl
    cases argv with
    | nil => cases x <;> simp [Means] at hm
    | cons a argv =>
      cases a with
      | self =>
        cases x with
        | some b => simp [Means] at hm
        | none =>
          have hh : Holds (toVar ⟨ty.units acc, 0 :: room⟩).mem (ty.units acc) := ⟨hnz, room, rfl⟩
          exact key acc .self argv _ _ hm hnz (open_self ty hh) (.inr ⟨_, rfl, Nat.le_refl _, List.take_length⟩)
      | other p =>
        cases x with
        | none => simp [Means] at hm
        | some b =>
          obtain ⟨⟨memb, rfl, hb⟩, hm⟩ := hm
          exact key b (.other (some memb)) argv _ _ hm hb.1 (open_text ty _ hb) (.inl rfl)

/-- CONCAT when the destination, which holds `s`, is among the arguments: as the first argument it stands for `s`, as a later one for
everything in front of it. -/
theorem C143_concat_exact (ty : StrTy) (mem : List Nat) (s : List Char) (hs : Holds mem (ty.units s)) (a : Arg) (argv more : List Arg)
    (x : Option (List Char)) (ts : List (Option (List Char))) (h : Means ty (a :: argv) (x :: ts)) :
    concatOver (lazyOf ty) mem (ts.length + 1) (a :: argv ++ more) = store mem (ty.units (joined (x.getD s) ts)) := by
  have rest : ∀ acc : List Char, (∀ u ∈ ty.units acc, u ≠ 0) → (ty.units acc).length < mem.length → Means ty argv ts →
      (concatLoopOver (lazyOf ty) ts.length (argv ++ more) (toVar ⟨ty.units acc, 0 :: mem.drop ((ty.units acc).length + 1)⟩) >>=
        fun v => pure v.mem) = store mem (ty.units (joined acc ts)) := by
    intro acc hnz hlt hm
    rw [concat_more ty ts argv more hm acc hnz]
    obtain ⟨l, hl⟩ := joined_prefix ts acc
    have hle : (ty.units acc).length ≤ (ty.units (joined acc ts)).length := by
      rw [hl, units_append]; simp only [List.length_append]; omega
    unfold store
    rw [List.length_drop]
    by_cases h1 : (ty.units (joined acc ts)).length < mem.length
    · rw [if_pos (by omega), if_pos h1, List.drop_drop,
        show (ty.units acc).length + 1 + ((ty.units (joined acc ts)).length - (ty.units acc).length) = (ty.units (joined acc ts)).length + 1 by omega]
      rfl
    · rw [if_neg (by omega), if_neg h1]; rfl
  have hle : ∀ acc : List Char, (ty.units acc).length ≤ (ty.units (joined acc ts)).length := by
    intro acc
    obtain ⟨l, hl⟩ := joined_prefix ts acc
    rw [hl, units_append]; simp only [List.length_append]; omega
  unfold concatOver
  rw [show ((ts.length : Int) + 1).toNat = ts.length + 1 by omega, List.cons_append, concatLoopOver]
  cases a with
  | self =>
    cases x with
    | some b => simp [Means] at h
    | none =>
      rw [open_self ty hs, Res.bind_ok]
      dsimp only
      have hmem := hs
      obtain ⟨hnz, tail, rfl⟩ := hmem
      have hw : (lazyOf ty).encode [⟨.self 0 (ty.units s).length, 0, none⟩] ⟨ty.units s ++ 0 :: tail, 0⟩ =
          .ok (toVar ⟨ty.units s, 0 :: tail⟩) := by
        unfold LazyCodec.encode
        rw [List.foldlM_cons, run_first]
        simp only [List.foldlM_nil, Res.bind_ok, Res.pure_eq, limited, List.drop_zero, List.drop_left]
        rw [terminate_toVar]; rfl
      rw [hw, Res.bind_ok]
      have := rest s hnz (by simp) h
      rw [← List.drop_drop, List.drop_left] at this
      exact this
  | other p =>
    cases x with
    | none => simp [Means] at h
    | some b =>
      obtain ⟨⟨memb, rfl, hb⟩, hm⟩ := h
      rw [open_text ty mem hb, Res.bind_ok]
      dsimp only
      rw [show (⟨mem, 0⟩ : Var) = toVar ⟨[], mem⟩ from rfl, encode_more ty [] mem b _ (.inl rfl)]
      by_cases h1 : (ty.units b).length < mem.length
      · rw [if_pos h1, Res.bind_ok]
        exact rest b hb.1 h1 hm
      · rw [if_neg h1]
        have := hle b
        unfold store
        rw [if_neg (by simp only [Option.getD_some]; omega)]; rfl

/-- Right when the destination is the first argument and no other one. -/
theorem C143_concat_partial (ty : StrTy) (mem : List Nat) (s : List Char) (hs : Holds mem (ty.units s)) (ptrs : List Ptr) (ts : List (List Char))
    (h : HoldTexts ty ptrs ts) :
    concatOver (lazyOf ty) mem (ts.length + 1) (.self :: ptrs.map .other) = store mem (ty.units (s ++ ts.flatten)) := by
  have hm : ∀ (ptrs : List Ptr) (ts : List (List Char)), HoldTexts ty ptrs ts → Means ty (ptrs.map .other) (ts.map some) := by
    intro ptrs
    induction ptrs with
    | nil => intro ts h; cases ts with | nil => trivial | cons _ _ => simp [HoldTexts] at h
    | cons p ptrs ih =>
      intro ts h
      cases ts with
      | nil => simp [HoldTexts] at h
      | cons t ts => exact ⟨h.1, ih ts h.2⟩
  have hj : ∀ (ts : List (List Char)) (acc : List Char), joined acc (ts.map some) = acc ++ ts.flatten := by
    intro ts
    induction ts with
    | nil => intro acc; simp [joined]
    | cons t ts ih => intro acc; rw [List.map_cons, joined, ih, List.flatten_cons, List.append_assoc]
  have := C143_concat_exact ty mem s hs .self (ptrs.map .other) [] none (ts.map some) (hm ptrs ts h)
  rw [List.append_nil, List.length_map, hj] at this
  exact this

/-- INSERT, REPLACE and CONCAT into one of their arguments give something else than they give in a separate destination: 'XY' put into 'abcd'
behind 'a' gives 'aXYXYX', 'XY' for the 'a' of 'abcd' gives 'XYYYY', and CONCAT('XYZ', s) into `s` 'XYZXYZ' whatever `s` was.  So does DELETE
with a negative length in a release build. -/
theorem C143_refuted :
    (¬ ∀ (ty : StrTy) (mem memb : List Nat) (a b : List Char) (P : Int), Holds mem (ty.units a) → Holds memb (ty.units b) →
      insertOver (lazyOf ty) mem .self (.other (some memb)) P = insert (codecOf ty) (some mem) (some memb) P (some mem)) ∧
    (¬ ∀ (p : Profile) (ty : StrTy) (mem memb : List Nat) (a b : List Char) (L P : Int), Holds mem (ty.units a) → Holds memb (ty.units b) →
      replaceOver p (lazyOf ty) mem .self (.other (some memb)) L P = replace p (codecOf ty) (some mem) (some memb) L P (some mem)) ∧
    (¬ ∀ (ty : StrTy) (mem memb : List Nat) (a b : List Char), Holds mem (ty.units a) → Holds memb (ty.units b) →
      concatOver (lazyOf ty) mem 2 [.other (some memb), .self] = concat (codecOf ty) (some mem) 2 (some [some memb, some mem])) ∧
    (¬ ∀ (p : Profile) (ty : StrTy) (mem : List Nat) (a : List Char) (L P : Int), Holds mem (ty.units a) →
      deleteOver p (lazyOf ty) mem .self L P = delete p (codecOf ty) (some mem) L P (some mem)) := by
  have h1 : Holds [97, 98, 99, 100, 0, 0, 0, 0] (StrTy.STRING.units ['a', 'b', 'c', 'd']) := ⟨by decide, [0, 0, 0], by decide⟩
  have h2 : Holds [88, 89, 0] (StrTy.STRING.units ['X', 'Y']) := ⟨by decide, [], by decide⟩
  refine ⟨fun h => ?_, fun h => ?_, fun h => ?_, fun h => ?_⟩
  · have := h .STRING _ _ _ _ 1 h1 h2
    revert this; decide
  · have := h .debug .STRING _ _ _ _ 1 1 h1 h2
    revert this; decide
  · have := h .STRING _ _ _ _ h1 h2
    revert this; decide
  · have := h .release .STRING _ _ (-1) 3 h1
    revert this; decide

/-- 'aé😀z' in its own memory: the middle two characters, and without the second one. -/
example : midOver .debug lazy8 [0x61, 0xC3, 0xA9, 0xF0, 0x9F, 0x98, 0x80, 0x7A, 0] .self 2 2 =
    .ok [0xC3, 0xA9, 0xF0, 0x9F, 0x98, 0x80, 0, 0x7A, 0] := by decide
example : deleteOver .debug lazy16 [0x61, 0xE9, 0xD83D, 0xDE00, 0x7A, 0] .self 1 2 = .ok [0x61, 0xD83D, 0xDE00, 0x7A, 0, 0] := by decide
example : rightOver lazy8 [0x61, 0xC3, 0xA9, 0] .self 1 = .ok [0xC3, 0xA9, 0, 0] := by decide
example : insertOver lazy8 [97, 98, 99, 100, 0, 0, 0] .self (.other (some [88, 89, 0])) 1 = .ok [97, 88, 89, 88, 89, 88, 0] := by decide
example : replaceOver .debug lazy8 [97, 98, 99, 100, 0, 0] .self (.other (some [88, 89, 0])) 1 1 = .ok [88, 89, 89, 89, 89, 0] := by decide
example : replaceOver .debug lazy8 [97, 98, 99, 100, 0, 0] .self (.other (some [88, 89, 0])) 3 1 = .ok [88, 89, 100, 0, 0, 0] := by decide
example : replaceOver .debug lazy8 [97, 98, 99, 100, 0, 0, 0] .self (.other (some [88, 89, 90, 0])) 1 2 = .ok [97, 88, 89, 90, 89, 90, 0] := by decide
example : insertOver lazy8 [88, 89, 90, 0, 0, 0, 0] (.other (some [97, 98, 99, 0])) .self 2 = .ok [97, 98, 97, 98, 97, 99, 0] := by decide
example : replaceOver .debug lazy8 [88, 89, 90, 0, 0, 0, 0] (.other (some [97, 98, 99, 0])) .self 1 1 = .ok [88, 89, 90, 98, 99, 0, 0] := by decide
example : concatOver lazy8 [97, 98, 0, 0, 0, 0, 0] 2 [.self, .self] = .ok [97, 98, 97, 98, 0, 0, 0] := by decide
example : concatOver lazy8 [97, 98, 0, 0, 0, 0, 0] 2 [.other (some [88, 89, 90, 0]), .self] = .ok [88, 89, 90, 88, 89, 90, 0] := by decide
example : joined ['a'] [some ['b'], none, some ['c']] = ['a', 'b', 'a', 'b', 'c'] := by decide
example : Means .STRING [.self, .other (some [88, 0, 7])] [none, some ['X']] := ⟨⟨_, rfl, by decide, [7], by decide⟩, trivial⟩
example : OneUnit .STRING ['a', 'b', 'c', 'd', 'X', 'Y'] := by unfold OneUnit; decide
example : (StrTy.STRING.units ['X', 'Y']).length = (StrTy.STRING.units ((['a', 'b', 'c', 'd'].drop 0).take 2)).length := by decide

end Verif
