import Verif.Props.FindEdit
/-
C133: a loop with FIND, LEFT and DELETE that takes a list apart, as the inverse of CONCAT.
-/
namespace Verif
open Spec

/-- The loop
`n := FIND(s, sep); WHILE n > 0 DO field[i] := LEFT(s, n - 1); s := DELETE(s, n, 1); n := FIND(s, sep); END_WHILE; field[i] := s`
with at most `fuel` fields: the contents of the variables `field[i]`.  `d` is what was in these variables before. -/
def splitFields (p : Profile) (ty : StrTy) (sep d : List Nat) : Nat → List Nat → Res (List (List Nat))
  | 0, _ => .ok []
  | fuel + 1, s => do
    let n ← findOf ty p (some s) (some sep)
    if n > 0 then
      let field ← left (codecOf ty) (some s) (n - 1) (some d)
      let s' ← delete p (codecOf ty) (some s) n 1 (some s)
      let fields ← splitFields p ty sep d fuel s'
      pure (field :: fields)
    else pure [s]

private theorem first_sep (c : Char) (t rest : List Char) (h : c ∉ t) : FirstOccurrence (t ++ c :: rest) [c] t.length := by
  constructor
  · rw [List.drop_left]; exact ⟨rest, rfl⟩
  · rintro j hj ⟨d, hd⟩
    rw [List.drop_append_of_le_length hj.le, List.drop_eq_getElem_cons hj] at hd
    simp only [List.cons_append, List.cons.injEq] at hd
    exact h (hd.1 ▸ List.getElem_mem hj)

private theorem no_sep (c : Char) (t : List Char) (h : c ∉ t) : ¬ Occurs t [c] := by
  rintro ⟨k, d, hd⟩
  apply h
  apply List.mem_of_mem_drop (i := k)
  rw [← hd]; simp

private theorem intercalate_cons (c : Char) (t u : List Char) (ts : List (List Char)) :
    [c].intercalate (t :: u :: ts) = t ++ c :: [c].intercalate (u :: ts) := by
  simp [List.intercalate, List.intersperse]

private theorem store_length {dest s out : List Nat} (h : store dest s = .ok out) : out.length = dest.length := by
  unfold store at h
  split at h
  · cases h; simp only [List.length_append, List.length_cons, List.length_drop]; omega
  · cases h

private theorem forall₂_imp {α β : Type} {R S : α → β → Prop} (h : ∀ a b, R a b → S a b) {l : List α} {m : List β} :
    List.Forall₂ R l m → List.Forall₂ S l m
  | .nil => .nil
  | .cons a b => .cons (h _ _ a) (forall₂_imp h b)

/-- **C133.** If the string is a list of fields that do not contain the separator character `c`, joined by `c`, the loop ends with exactly these
fields: none is lost, empty ones included, none is added, and nothing is written outside of the variables. -/
theorem C133_split (p : Profile) (ty : StrTy) (c : Char) (msep d ma : List Nat) (fields : List (List Char)) (hne : fields ≠ [])
    (hsep : Holds msep (ty.units [c])) (hc : ∀ t ∈ fields, c ∉ t)
    (ha : Holds ma (ty.units ([c].intercalate fields))) (hla : ([c].intercalate fields).length < 2 ^ 31)
    (hd : ma.length ≤ d.length) (fuel : Nat) (hfuel : fields.length ≤ fuel) :
    ∃ out, splitFields p ty msep d fuel ma = .ok out ∧
      List.Forall₂ (fun m t => Holds m (ty.units t) ∧ (m.length = d.length ∨ m.length = ma.length)) out fields := by
  induction fields generalizing ma fuel with
  | nil => exact absurd rfl hne
  | cons t ts ih =>
    cases fuel with
    | zero => simp at hfuel
    | succ fuel =>
      unfold splitFields
      cases ts with
      | nil =>
        have e : [c].intercalate [t] = t := by simp [List.intercalate]
        rw [e] at ha hla
        rw [find_not_found ty p ma msep t [c] ha hsep (.inr (no_sep c t (hc t (by simp)))), Res.bind_ok, if_neg (by omega)]
        exact ⟨[ma], rfl, .cons ⟨ha, .inr rfl⟩ .nil⟩
      | cons u us =>
        rw [intercalate_cons] at ha hla
        have hz := noNul_of_holds ty ha
        generalize hrest : [c].intercalate (u :: us) = rest at *
        have hlen : (t ++ c :: rest).length = t.length + (rest.length + 1) := by simp
        rw [hlen] at hla
        have hpos : 0 < (ty.units [c]).length := List.length_pos_iff.2 (units_ne_nil ty (by simp))
        have hunits : (ty.units (t ++ c :: rest)).length = (ty.units t).length + ((ty.units [c]).length + (ty.units rest).length) := by
          rw [show t ++ c :: rest = t ++ ([c] ++ rest) from rfl, units_append, units_append, List.length_append, List.length_append]
        have hmem : (ty.units (t ++ c :: rest)).length < ma.length := by
          obtain ⟨_, tail, hm⟩ := ha
          have := congrArg List.length hm
          simp only [List.length_append, List.length_cons] at this
          omega
        rw [find_found ty p ma msep _ [c] t.length ha hsep (by rw [hlen]; exact hla) (by simp) (first_sep c t rest (hc t (by simp))),
          Res.bind_ok, if_pos (by omega)]
        rw [C45_left ty ma d _ _ ha (by simp [IntTy.InRange, IntTy.lo, IntTy.hi, IntTy.i32]; omega), if_pos (by rw [hlen]; omega)]
        rw [show ((t.length : Int) + 1 - 1).toNat = t.length by omega, List.take_left]
        have s1 : store d (ty.units t) = .ok (ty.units t ++ 0 :: d.drop ((ty.units t).length + 1)) := by
          unfold store; rw [if_pos (by omega)]
        rw [s1, Res.bind_ok]
        rw [C46_delete p ty ma ma _ _ 1 ha (by rw [hlen]; exact hla) (by simp [IntTy.InRange, IntTy.lo, IntTy.hi, IntTy.i32]; omega)
          (by decide) (by omega), if_pos (by rw [hlen]; omega)]
        have ed : (t ++ c :: rest).take ((1 : Int) - 1).toNat ++ (t ++ c :: rest).drop (1 - 1 + ((t.length : Int) + 1)).toNat = rest := by
          rw [show (1 - 1 + ((t.length : Int) + 1)).toNat = (t ++ [c]).length by simp,
            show t ++ c :: rest = (t ++ [c]) ++ rest by simp, List.drop_left]
          simp
        rw [ed]
        have s2 : store ma (ty.units rest) = .ok (ty.units rest ++ 0 :: ma.drop ((ty.units rest).length + 1)) := by
          unfold store; rw [if_pos (by omega)]
        have l2 := store_length s2
        have h1 := store_ok_holds ty (NoNul.sub hz fun x hx => by simp [hx]) s1
        have h2 := store_ok_holds ty (NoNul.sub hz fun x hx => by simp [hx]) s2
        rw [s2, Res.bind_ok]
        obtain ⟨out, o1, o2⟩ := ih _ (by simp) (fun x hx => hc x (by simp at hx ⊢; exact .inr hx)) h2 (by omega) (by omega) fuel
          (by simp at hfuel ⊢; omega)
        rw [o1, Res.bind_ok]
        refine ⟨_, rfl, .cons ⟨h1, .inl (store_length s1)⟩ (forall₂_imp (fun _ _ h => ⟨h.1, h.2.imp id fun h => by rw [h, l2]⟩) o2)⟩

private theorem holdTexts_intersperse (ty : StrTy) (sep : Ptr) (c : List Char) (hs : ∃ m, sep = some m ∧ Holds m (ty.units c)) :
    ∀ (fs : List Ptr) (ts : List (List Char)), HoldTexts ty fs ts → HoldTexts ty (fs.intersperse sep) (ts.intersperse c)
  | [], [], _ => trivial
  | [_], [_], h => h
  | _ :: g :: fs, _ :: u :: ts, h => ⟨h.1, hs, holdTexts_intersperse ty sep c hs (g :: fs) (u :: ts) h.2⟩
  | [], _ :: _, h => h.elim
  | _ :: _, [], h => h.elim
  | [_], _ :: _ :: _, h => h.2.elim
  | _ :: _ :: _, [_], h => h.2.elim

private theorem noNul_of_holdTexts (ty : StrTy) : ∀ (fs : List Ptr) (ts : List (List Char)), HoldTexts ty fs ts → NoNul ts.flatten
  | [], [], _ => by simp [NoNul]
  | _ :: fs, t :: ts, h => by
    obtain ⟨⟨m, _, hm⟩, h⟩ := h
    intro x hx
    simp only [List.flatten_cons, List.mem_append] at hx
    exact hx.elim (noNul_of_holds ty hm x) (noNul_of_holdTexts ty fs ts h x)
  | [], _ :: _, h => h.elim
  | _ :: _, [], h => h.elim

/-- **C133.** What CONCAT(field1, sep, field2, sep, ...) has joined, the loop takes apart again. -/
theorem C133_join_split (p : Profile) (ty : StrTy) (c : Char) (msep d dest o : List Nat) (fs : List Ptr) (fields : List (List Char))
    (hne : fields ≠ []) (hsep : Holds msep (ty.units [c])) (hfs : HoldTexts ty fs fields) (hc : ∀ t ∈ fields, c ∉ t)
    (hla : ([c].intercalate fields).length < 2 ^ 31) (hd : dest.length ≤ d.length)
    (r : concat (codecOf ty) (some dest) ((fs.intersperse (some msep)).length : Nat) (some (fs.intersperse (some msep))) = .ok o) :
    ∃ out, splitFields p ty msep d fields.length o = .ok out ∧ List.Forall₂ (fun m t => Holds m (ty.units t)) out fields := by
  have h := holdTexts_intersperse ty (some msep) [c] ⟨msep, rfl, hsep⟩ fs fields hfs
  have hl : (fs.intersperse (some msep)).length = (fields.intersperse [c]).length := by
    have : ∀ (a : List Ptr) (b : List (List Char)), HoldTexts ty a b → a.length = b.length := by
      intro a
      induction a with
      | nil => intro b h; cases b <;> simp_all [HoldTexts]
      | cons x a ih => intro b h; cases b with
        | nil => exact h.elim
        | cons y b => simp [ih b h.2]
    exact this _ _ h
  have hne' : fields.intersperse [c] ≠ [] := by
    cases fields with
    | nil => exact absurd rfl hne
    | cons t ts => cases ts <;> simp [List.intersperse]
  have := C48_concat ty (fields.intersperse [c]) (fs.intersperse (some msep)) [] dest hne' h
  rw [List.append_nil, ← hl, r] at this
  have hz : NoNul ([c].intercalate fields) := noNul_of_holdTexts ty _ _ h
  have k := store_ok_holds ty hz this.symm
  have e := store_length this.symm
  obtain ⟨out, o1, o2⟩ := C133_split p ty c msep d o fields hne hsep hc k hla (by omega) fields.length (le_refl _)
  exact ⟨out, o1, forall₂_imp (fun _ _ h => h.1) o2⟩

/-! ### Examples -/

/-- 'a,,b,' is taken apart into 'a', '', 'b' and ''. -/
example : splitFields .debug .STRING [0x2C, 0] [9, 9, 9, 9, 9, 9] 10 [0x61, 0x2C, 0x2C, 0x62, 0x2C, 0] =
    .ok [[0x61, 0, 9, 9, 9, 9], [0, 9, 9, 9, 9, 9], [0x62, 0, 9, 9, 9, 9], [0, 0x2C, 0, 0, 0x2C, 0]] := by decide
/-- Its hypotheses for this string. -/
example : ([','].intercalate [['a'], [], ['b'], []] : List Char) = ['a', ',', ',', 'b', ','] := by decide
example : Holds [0x61, 0x2C, 0x2C, 0x62, 0x2C, 0] (StrTy.STRING.units ([','].intercalate [['a'], [], ['b'], []])) :=
  ⟨by decide, [], by decide⟩
example : ∀ t ∈ ([['a'], [], ['b'], []] : List (List Char)), ',' ∉ t := by decide
/-- CONCAT('a', ',', 'b'). -/
example : concat codec8 (some [9, 9, 9, 9]) 3 (some (List.intersperse (some [0x2C, 0]) [some [0x61, 0], some [0x62, 0]])) =
    .ok [0x61, 0x2C, 0x62, 0] := by decide

end Verif
