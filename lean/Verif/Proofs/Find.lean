import Verif.Proofs.Strings
/-
Searching code units finds character positions: UTF-8 and UTF-16 are self-synchronising.
-/
namespace Verif
open Spec

/-- Units that only occur behind the first unit of a character. -/
def Trail : StrTy → Nat → Prop
  | .STRING, u => 0x80 ≤ u ∧ u ≤ 0xBF
  | .WSTRING, u => 0xDC00 ≤ u ∧ u ≤ 0xDFFF

theorem units_shape (ty : StrTy) (c : Char) :
    ∃ l0 cs, ty.units [c] = l0 :: cs ∧ ¬ Trail ty l0 ∧ ∀ u ∈ cs, Trail ty u := by
  have hb := char_bounds c
  cases ty
  · simp only [StrTy.units, utf8, List.flatMap_cons, List.flatMap_nil, List.append_nil, utf8Char,
      Trail]
    generalize c.toNat = n at *
    split
    · exact ⟨_, _, rfl, by omega, by simp⟩
    split
    · refine ⟨_, _, rfl, by omega, ?_⟩
      intro u hu; simp only [List.mem_cons, List.not_mem_nil, or_false] at hu; omega
    split
    · refine ⟨_, _, rfl, by omega, ?_⟩
      intro u hu; simp only [List.mem_cons, List.not_mem_nil, or_false] at hu; omega
    · refine ⟨_, _, rfl, by omega, ?_⟩
      intro u hu; simp only [List.mem_cons, List.not_mem_nil, or_false] at hu; omega
  · simp only [StrTy.units, utf16, List.flatMap_cons, List.flatMap_nil, List.append_nil,
      utf16Char, Trail]
    generalize c.toNat = n at *
    split
    · exact ⟨_, _, rfl, by omega, by simp⟩
    · refine ⟨_, _, rfl, by omega, ?_⟩
      intro u hu; simp only [List.mem_cons, List.not_mem_nil, or_false] at hu; omega

theorem skip_trail {P : Nat → Prop} (xs cs rest tail : List Nat) (h : Nat) (hh : ¬ P h)
    (hc : ∀ u ∈ cs, P u) (e : xs ++ h :: rest = cs ++ tail) :
    ∃ xs', xs = cs ++ xs' ∧ xs' ++ h :: rest = tail := by
  induction cs generalizing xs with
  | nil => exact ⟨xs, rfl, e⟩
  | cons c cs ih =>
    cases xs with
    | nil =>
      simp only [List.nil_append, List.cons_append, List.cons.injEq] at e
      exact absurd (hc c (by simp)) (e.1 ▸ hh)
    | cons x xs =>
      simp only [List.cons_append, List.cons.injEq] at e
      obtain ⟨xs', h1, h2⟩ := ih xs (fun u hu => hc u (by simp [hu])) e.2
      exact ⟨xs', by rw [e.1, h1]; rfl, h2⟩

/-- A text that starts with the units of another starts with the other. -/
theorem prefix_of_units (ty : StrTy) {a b : List Char} {y : List Nat}
    (h : ty.units a = ty.units b ++ y) : ∃ d, a = b ++ d := by
  cases ty
  · have h8 : ∀ (b : List Char) (y : List Nat), chars (utf8 b ++ y) = b ++ chars y := by
      intro b y
      induction b with
      | nil => rfl
      | cons c b ih => rw [utf8_cons, List.append_assoc, chars_char, ih]; rfl
    have h' : utf8 a = utf8 b ++ y := h
    refine ⟨chars y, ?_⟩
    rw [← chars_utf8 a, h', h8]
  · have h16 : ∀ (b : List Char) (y : List Nat),
        decode_utf16 (utf16 b ++ y) = b.map some ++ decode_utf16 y := by
      intro b y
      induction b with
      | nil => rfl
      | cons c b ih => rw [utf16_cons, List.append_assoc, decode_utf16_char, ih]; rfl
    have h' : utf16 a = utf16 b ++ y := h
    have := decode_utf16_utf16 a
    rw [h', h16] at this
    refine ⟨(decode_utf16 y).filterMap id, ?_⟩
    have h2 := congrArg (List.filterMap id) this
    simp only [List.filterMap_append, List.filterMap_map, Function.comp_def, id] at h2
    simpa using h2.symm

/-- Self-synchronisation: the units of `b` occur in the units of `a` only at the beginning of
a character. -/
theorem sync (ty : StrTy) {a b : List Char} (hb : b ≠ []) {x y : List Nat}
    (h : ty.units a = x ++ (ty.units b ++ y)) :
    ∃ k, k ≤ a.length ∧ x = ty.units (a.take k) ∧ b <+: a.drop k := by
  induction a generalizing x with
  | nil =>
    cases b with
    | nil => exact absurd rfl hb
    | cons c b =>
      obtain ⟨l0, cs, hl, _⟩ := units_shape ty c
      rw [units_nil, units_cons, hl] at h
      simp at h
  | cons c a ih =>
    cases x with
    | nil =>
      obtain ⟨d, hd⟩ := prefix_of_units ty h
      exact ⟨0, by simp, by simp [units_nil], ⟨d, by simp [hd]⟩⟩
    | cons x0 xs =>
      obtain ⟨l0, cs, hl, hl0, hcs⟩ := units_shape ty c
      cases b with
      | nil => exact absurd rfl hb
      | cons c' b =>
        obtain ⟨m0, ms, hm, hm0, hms⟩ := units_shape ty c'
        rw [units_cons, hl] at h
        conv at h => rhs; rw [units_cons ty c' b, hm]
        simp only [List.cons_append, List.cons.injEq, List.append_assoc] at h
        obtain ⟨xs', h1, h2⟩ := skip_trail xs cs _ _ m0 hm0 hcs h.2.symm
        obtain ⟨k, hk, hx, hp⟩ := ih (x := xs') (by
          rw [← h2, units_cons ty c' b, hm]; simp)
        refine ⟨k + 1, by simp; omega, ?_, by simpa using hp⟩
        rw [List.take_succ_cons, units_cons, hl, ← hx, h1, h.1]
        rfl

theorem position_some {needle l : List Nat} {i : Nat}
    (h : position needle l = some i) :
    needle <+: l.drop i ∧ ∀ j < i, ¬ needle <+: l.drop j := by
  induction l generalizing i with
  | nil => simp [position] at h
  | cons u l ih =>
    unfold position at h
    split at h
    · cases h
    rename_i hlen
    split at h
    · rename_i heq
      cases h
      rw [beq_iff_eq] at heq
      refine ⟨?_, fun j hj => absurd hj (Nat.not_lt_zero j)⟩
      rw [List.drop_zero]
      conv => lhs; rw [← heq]
      exact List.take_prefix _ _
    · rename_i hne
      simp only [Option.map_eq_some_iff] at h
      obtain ⟨j, hj, rfl⟩ := h
      obtain ⟨h1, h2⟩ := ih hj
      refine ⟨by simpa using h1, ?_⟩
      intro m hm
      cases m with
      | zero =>
        intro hp
        rw [List.drop_zero] at hp
        apply hne
        rw [beq_iff_eq]
        exact (List.prefix_iff_eq_take.1 hp).symm
      | succ m => simpa using h2 m (by omega)

theorem position_none {needle l : List Nat} (hn : needle ≠ []) (h : position needle l = none) :
    ∀ j, ¬ needle <+: l.drop j := by
  induction l with
  | nil => intro j hp; simp at hp; exact hn hp
  | cons u l ih =>
    unfold position at h
    split at h
    · rename_i hlen
      intro j hp
      have := hp.length_le
      rw [List.length_drop] at this
      omega
    split at h
    · cases h
    · rename_i hne
      simp only [Option.map_eq_none_iff] at h
      intro j
      cases j with
      | zero =>
        intro hp
        rw [List.drop_zero] at hp
        apply hne
        rw [beq_iff_eq]
        exact (List.prefix_iff_eq_take.1 hp).symm
      | succ j => simpa using ih h j

/-- `FIND__STRING` / `FIND__WSTRING`. -/
def findOf : StrTy → Profile → Ptr → Ptr → Res Int
  | .STRING => FIND__STRING
  | .WSTRING => FIND__WSTRING

theorem findOf_eq (ty : StrTy) (p : Profile) {m1 m2 haystack needle : List Nat}
    (h1 : Holds m1 haystack) (h2 : Holds m2 needle) :
    findOf ty p (some m1) (some m2) =
      (if needle.length > haystack.length || haystack.isEmpty || needle.isEmpty then .ok 0
      else
        match position needle haystack with
        | some idx =>
          (codecOf ty).decodeSlice (haystack.take idx) >>= fun chars =>
            IntTy.i32.arith p (asI32 chars.length + 1)
        | none => .ok 0) := by
  cases ty
  · show FIND__STRING p (some m1) (some m2) = _
    unfold FIND__STRING
    rw [ptr_to_slice_of_holds h1, ptr_to_slice_of_holds h2, Res.bind_ok, Res.bind_ok]
    rfl
  · show FIND__WSTRING p (some m1) (some m2) = _
    unfold FIND__WSTRING
    rw [ptr_to_slice_of_holds h1, ptr_to_slice_of_holds h2, Res.bind_ok, Res.bind_ok]
    rfl

theorem units_length_pos (ty : StrTy) (c : Char) : 0 < (ty.units [c]).length := by
  obtain ⟨l0, cs, h, _⟩ := units_shape ty c
  rw [h]; simp

theorem units_ne_nil (ty : StrTy) {t : List Char} (h : t ≠ []) : ty.units t ≠ [] := by
  cases t with
  | nil => exact absurd rfl h
  | cons c t =>
    obtain ⟨l0, cs, hl, _⟩ := units_shape ty c
    rw [units_cons, hl]; simp

theorem units_take_mono (ty : StrTy) (a : List Char) {i j : Nat} (h : i ≤ j) :
    (ty.units (a.take i)).length ≤ (ty.units (a.take j)).length := by
  have : a.take j = a.take i ++ (a.take j).drop i := by
    conv => lhs; rw [← List.take_append_drop i (a.take j)]
    rw [List.take_take, Nat.min_eq_left h]
  rw [this, units_append, List.length_append]
  omega

theorem arith_i32_succ (p : Profile) {n : Nat} (h : n + 1 < 2 ^ 31) :
    IntTy.i32.arith p (asI32 n + 1) = .ok ((n : Int) + 1) := by
  rw [asI32_small (by omega)]
  unfold IntTy.arith
  rw [if_pos (by simp [IntTy.InRange, IntTy.lo, IntTy.hi, IntTy.i32]; omega)]

end Verif
