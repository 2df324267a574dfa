import Verif.Props.Split
import Verif.Props.Padding
/-
C142: a list of numbers, written into one string with a separator, and read back.
-/
namespace Verif
open Spec

/-- LINT_TO_STRING or LINT_TO_WSTRING. -/
def numberText (ty : StrTy) (x : Int) : Res (List Nat) :=
  match ty with
  | .STRING => St.LINT_TO_STRING x
  | .WSTRING => St.LINT_TO_WSTRING x

/-- STRING_TO_LINT or WSTRING_TO_LINT. -/
def textNumber (ty : StrTy) (s : List Nat) : Res Int :=
  match ty with
  | .STRING => STRING_TO_LINT (some s)
  | .WSTRING => WSTRING_TO_LINT (some s)

/-- `s := LINT_TO_STRING(x[0]); FOR i := 1 TO n DO s := CONCAT(s, sep, LINT_TO_STRING(x[i])); END_FOR` -/
def writeNumbers (ty : StrTy) (sep : List Nat) (x : Int) (xs : List Int) : Res (List Nat) := do
  let s ← numberText ty x
  xs.foldlM (fun s x => do
    let n ← numberText ty x
    St.CONCAT (codecOf ty) [some s, some sep, some n]) s

/-- The loop of C133, with `STRING_TO_LINT(field[i])` for each field. -/
def readNumbers (p : Profile) (ty : StrTy) (sep d : List Nat) (fuel : Nat) (s : List Nat) : Res (List Int) := do
  let fields ← splitFields p ty sep d fuel s
  fields.mapM (textNumber ty)

private theorem ascii_units (ty : StrTy) {s : List Nat} (h : Ascii s) : ty.units (s.map Char.ofNat) = s := by
  cases ty
  · exact (ascii_utf8 fun b hb => (h b hb).2).symm
  · exact (ascii_utf16 fun b hb => (h b hb).2).symm

private def txt (x : Int) : List Char := (signedDecimal x).map Char.ofNat

private theorem units_txt (ty : StrTy) (x : Int) : ty.units (txt x) = signedDecimal x := ascii_units ty (ascii_signedDecimal x)

private theorem numberText_ok (ty : StrTy) {x : Int} (h : IntTy.i64.InRange x) : ∃ m, numberText ty x = .ok m ∧ m.length ≤ 2049 ∧ Holds m (ty.units (txt x)) := by
  rw [units_txt]
  obtain ⟨_, ⟨ms, e1, l1, h1⟩, mw, e2, l2, h2⟩ := (C94_signed x).1 h
  cases ty
  · exact ⟨ms, e1, by omega, h1⟩
  · exact ⟨mw, e2, by omega, h2⟩

private theorem textNumber_ok (ty : StrTy) {x : Int} (h : IntTy.i64.InRange x) {m : List Nat} (hm : Holds m (ty.units (txt x))) :
    textNumber ty m = .ok x := by
  have hs : ∀ m, Holds m (signedDecimal x) → STRING_TO_LINT (some m) = .ok x := fun m hm => by
    obtain ⟨m', _, h1, h2⟩ := (C59_roundtrip x 81 (by omega)).1 h
    rw [(C60_value m' _ h1 x).1] at h2
    exact ((C60_value m _ hm x).1).2 h2
  cases ty
  · rw [units_txt] at hm; exact hs m hm
  · have e : utf8 (txt x) = signedDecimal x := units_txt .STRING x
    have hl := signedDecimal_le h
    have hz : Holds (signedDecimal x ++ [0]) (utf8 (txt x)) := by rw [e]; exact ⟨signedDecimal_ne_zero x, [], rfl⟩
    show WSTRING_TO_LINT (some m) = _
    rw [((C75_partial m _ (txt x) hm hz).1 (by rw [e]; omega)).1]
    rw [e] at hz
    exact hs _ hz

/-- What the loop that writes has produced after the numbers `xs`, when it started with `a`. -/
private def joined (c : Char) (a : List Char) (xs : List Int) : List Char := xs.foldl (fun a x => a ++ c :: txt x) a

private theorem joined_eq (c : Char) (x : Int) (xs : List Int) (a : List Char) : a ++ joined c (txt x) xs = joined c (a ++ txt x) xs := by
  induction xs generalizing a x with
  | nil => rfl
  | cons y ys ih =>
    simp only [joined, List.foldl_cons] at ih ⊢
    have h : ∀ (b : List Char) (l : List Int), l.foldl (fun a x => a ++ c :: txt x) b = b ++ l.foldl (fun a x => a ++ c :: txt x) [] := by
      intro b l
      induction l generalizing b with
      | nil => simp
      | cons z zs ih => rw [List.foldl_cons, ih, List.foldl_cons, ih ([] ++ c :: txt z)]; simp
    rw [h (txt x ++ _), h (a ++ txt x ++ _)]; simp

private theorem joined_intercalate (c : Char) (x : Int) (xs : List Int) : joined c (txt x) xs = [c].intercalate ((x :: xs).map txt) := by
  induction xs generalizing x with
  | nil => simp [joined, List.intercalate]
  | cons y ys ih =>
    have : joined c (txt x) (y :: ys) = joined c ((txt x ++ [c]) ++ txt y) ys := by simp [joined]
    rw [this, ← joined_eq, ih]
    simp [List.intercalate]

private theorem joined_le (ty : StrTy) (c : Char) (a : List Char) (xs : List Int) : (ty.units a).length ≤ (ty.units (joined c a xs)).length := by
  induction xs generalizing a with
  | nil => exact Nat.le_refl _
  | cons x xs ih =>
    refine Nat.le_trans ?_ (ih (a ++ c :: txt x))
    rw [units_append, List.length_append]; omega

private theorem write_loop (ty : StrTy) (c : Char) (msep : List Nat) (hsep : Holds msep (ty.units [c])) (xs : List Int)
    (hx : ∀ x ∈ xs, IntTy.i64.InRange x) (a : List Char) (s : List Nat) (hs : Holds s (ty.units a)) (hsl : s.length ≤ 2049)
    (hl : (ty.units (joined c a xs)).length ≤ 2048) :
    ∃ o, xs.foldlM (fun s x => do
        let n ← numberText ty x
        St.CONCAT (codecOf ty) [some s, some msep, some n]) s = Res.ok o ∧ o.length ≤ 2049 ∧ Holds o (ty.units (joined c a xs)) := by
  induction xs generalizing a s with
  | nil => exact ⟨s, rfl, hsl, hs⟩
  | cons x xs ih =>
    obtain ⟨m, e, -, hm⟩ := numberText_ok ty (hx x (by simp))
    have hj : (ty.units (a ++ c :: txt x)).length ≤ 2048 := Nat.le_trans (joined_le ty c _ xs) hl
    obtain ⟨o, e', ho, h'⟩ := (C95_concat_partial ty [a, [c], txt x] [some s, some msep, some m] (by simp)
      ⟨⟨s, rfl, hs⟩, ⟨msep, rfl, hsep⟩, ⟨m, rfl, hm⟩, trivial⟩).1 (by simpa using hj)
    rw [List.foldlM_cons, e, Res.bind_ok, e', Res.bind_ok]
    exact ih (fun y hy => hx y (by simp [hy])) (a ++ c :: txt x) o (by simpa using h') (by omega) hl

private theorem write_too_long (ty : StrTy) (c : Char) (msep : List Nat) (hsep : Holds msep (ty.units [c])) (xs : List Int)
    (hx : ∀ x ∈ xs, IntTy.i64.InRange x) (a : List Char) (s : List Nat) (hs : Holds s (ty.units a)) (ha : (ty.units a).length ≤ 2048)
    (hl : 2048 < (ty.units (joined c a xs)).length) :
    xs.foldlM (fun s x => do
        let n ← numberText ty x
        St.CONCAT (codecOf ty) [some s, some msep, some n]) s = Res.ub := by
  induction xs generalizing a s with
  | nil => exact absurd hl (by simpa [joined] using ha)
  | cons x xs ih =>
    obtain ⟨m, e, -, hm⟩ := numberText_ok ty (hx x (by simp))
    have hc := C95_concat_partial ty [a, [c], txt x] [some s, some msep, some m] (by simp)
      ⟨⟨s, rfl, hs⟩, ⟨msep, rfl, hsep⟩, ⟨m, rfl, hm⟩, trivial⟩
    have ef : [a, [c], txt x].flatten = a ++ c :: txt x := by simp
    rw [ef] at hc
    rw [List.foldlM_cons, e, Res.bind_ok]
    by_cases hj : (ty.units (a ++ c :: txt x)).length ≤ 2048
    · obtain ⟨o, e', ho, h'⟩ := hc.1 hj
      rw [e', Res.bind_ok]
      exact ih (fun y hy => hx y (by simp [hy])) (a ++ c :: txt x) o h' hj hl
    · rw [hc.2 (by omega)]; rfl

private theorem units_intercalate (ty : StrTy) (c : Char) (ts : List (List Char)) :
    ty.units ([c].intercalate ts) = (ty.units [c]).intercalate (ts.map ty.units) := by
  induction ts with
  | nil => cases ty <;> simp [List.intercalate, StrTy.units, utf8, utf16]
  | cons t ts ih =>
    cases ts with
    | nil => simp [List.intercalate]
    | cons u ts =>
      simp only [List.map_cons] at ih ⊢
      simp only [List.intercalate, List.intersperse_cons_cons, List.flatten_cons] at ih ⊢
      rw [units_append, units_append, ih]

private theorem units_joined (ty : StrTy) (c : Char) (x : Int) (xs : List Int) :
    ty.units (joined c (txt x) xs) = (ty.units [c]).intercalate ((x :: xs).map signedDecimal) := by
  rw [joined_intercalate, units_intercalate, List.map_map]
  congr 1
  exact List.map_congr_left fun x _ => units_txt ty x

private theorem length_le_units (ty : StrTy) (t : List Char) : t.length ≤ (ty.units t).length := by
  induction t with
  | nil => simp
  | cons c t ih =>
    have := units_length_pos ty c
    rw [show c :: t = [c] ++ t from rfl, units_append, List.length_append, List.length_append, List.length_singleton]
    omega

/-! ### C142 -/

/-- **C142.** The loop that writes produces the decimal notations of the numbers with the separator between them, if this fits into a string of 2048
units; otherwise it writes outside of its result. -/
theorem C142_write (ty : StrTy) (c : Char) (msep : List Nat) (hsep : Holds msep (ty.units [c])) (x : Int) (xs : List Int)
    (hx : ∀ y ∈ x :: xs, IntTy.i64.InRange y) :
    (((ty.units [c]).intercalate ((x :: xs).map signedDecimal)).length ≤ 2048 →
      ∃ o, writeNumbers ty msep x xs = .ok o ∧ Holds o ((ty.units [c]).intercalate ((x :: xs).map signedDecimal))) ∧
    (2048 < ((ty.units [c]).intercalate ((x :: xs).map signedDecimal)).length → writeNumbers ty msep x xs = .ub) := by
  obtain ⟨m, e, hl, hm⟩ := numberText_ok ty (hx x (by simp))
  unfold writeNumbers
  rw [e, Res.bind_ok, ← units_joined ty]
  constructor
  · intro h
    obtain ⟨o, e', _, ho⟩ := write_loop ty c msep hsep xs (fun y hy => hx y (by simp [hy])) (txt x) m hm hl h
    exact ⟨o, e', ho⟩
  · intro h
    refine write_too_long ty c msep hsep xs (fun y hy => hx y (by simp [hy])) (txt x) m hm ?_ h
    rw [units_txt]
    have := signedDecimal_le (hx x (by simp)); omega

private theorem not_mem_txt {c : Char} (hc : c ∉ "-0123456789".toList) (x : Int) : c ∉ txt x := by
  intro h
  obtain ⟨b, hb, rfl⟩ := List.mem_map.1 h
  apply hc
  have : b = 45 ∨ (48 ≤ b ∧ b ≤ 57) := by
    unfold signedDecimal at hb
    have hd : ∀ n, b ∈ decimal n → 48 ≤ b ∧ b ≤ 57 := by
      intro n hn
      unfold decimal at hn
      split at hn
      · rw [show ascii "0" = [48] by decide, List.mem_singleton] at hn; omega
      · simp only [List.mem_map, List.mem_reverse] at hn
        obtain ⟨d, hd, rfl⟩ := hn
        have := Nat.digits_lt_base (by omega : 1 < 10) hd
        omega
    split at hb
    · rcases List.mem_append.1 hb with hb | hb
      · have : ascii "-" = [45] := by decide
        rw [this, List.mem_singleton] at hb; exact .inl hb
      · exact .inr (hd _ hb)
    · exact .inr (hd _ hb)
  have key : b ∈ (45 :: List.range' 48 10) := by
    rcases this with rfl | ⟨h1, h2⟩
    · simp
    · rw [List.mem_cons, List.mem_range'_1]; omega
  have all : ∀ b ∈ (45 :: List.range' 48 10), Char.ofNat b ∈ "-0123456789".toList := by decide
  exact all b key

private theorem mapM_ok (ty : StrTy) (xs : List Int) (hx : ∀ y ∈ xs, IntTy.i64.InRange y) (out : List (List Nat))
    (h : List.Forall₂ (fun m t => Holds m (ty.units t)) out (xs.map txt)) : out.mapM (textNumber ty) = .ok xs := by
  induction xs generalizing out with
  | nil => cases h; rfl
  | cons x xs ih =>
    cases h with
    | cons h1 h2 =>
      rw [List.mapM_cons, textNumber_ok ty (hx x (by simp)) h1, Res.bind_ok, ih (fun y hy => hx y (by simp [hy])) _ h2]
      rfl

/-- **C142.** Numbers that were written with a separator that is neither a digit nor a minus sign are read back exactly: each of them, in order, none lost
and none added. -/
theorem C142_read_back (p : Profile) (ty : StrTy) (c : Char) (hc : c ∉ "-0123456789".toList) (msep d : List Nat)
    (hsep : Holds msep (ty.units [c])) (hd : 2049 ≤ d.length) (x : Int) (xs : List Int) (hx : ∀ y ∈ x :: xs, IntTy.i64.InRange y)
    (hl : ((ty.units [c]).intercalate ((x :: xs).map signedDecimal)).length ≤ 2048) (fuel : Nat) (hf : xs.length + 1 ≤ fuel) :
    (writeNumbers ty msep x xs >>= readNumbers p ty msep d fuel) = .ok (x :: xs) := by
  obtain ⟨m, e, hml, hm⟩ := numberText_ok ty (hx x (by simp))
  rw [← units_joined ty] at hl
  obtain ⟨o, e', hol, ho⟩ := write_loop ty c msep hsep xs (fun y hy => hx y (by simp [hy])) (txt x) m hm hml hl
  have ew : writeNumbers ty msep x xs = .ok o := by unfold writeNumbers; rw [e, Res.bind_ok, e']
  rw [ew, Res.bind_ok]
  rw [joined_intercalate] at ho hl
  have hlen : ([c].intercalate ((x :: xs).map txt)).length < 2 ^ 31 := by
    have := length_le_units ty ([c].intercalate ((x :: xs).map txt))
    omega
  obtain ⟨out, eo, h⟩ := C133_split p ty c msep d o ((x :: xs).map txt) (by simp) hsep
    (by intro t ht; obtain ⟨y, _, rfl⟩ := List.mem_map.1 ht; exact not_mem_txt hc y) ho hlen (by omega) fuel (by simpa using hf)
  unfold readNumbers
  rw [eo, Res.bind_ok]
  exact mapM_ok ty (x :: xs) hx out (h.imp fun _ _ h => h.1)

example : (writeNumbers .STRING [59, 0] 12 [-5, 0] >>= readNumbers .debug .STRING [59, 0] (List.replicate 2049 0) 3) = .ok [12, -5, 0] :=
  C142_read_back .debug .STRING ';' (by decide) [59, 0] _ ⟨by decide, [], by decide⟩ (by rw [List.length_replicate]) 12 [-5, 0] (by decide) (by decide +kernel) 3 (by simp)

end Verif
