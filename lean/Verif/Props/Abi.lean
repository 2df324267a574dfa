import Verif.Model.AbiTable
import Verif.Spec.Abi
/-
C101, C102: the declarations of the ST files and the native code fit together.
-/
namespace Verif.Abi

/-! ### C structs -/

private theorem alignUp_le (n a : Nat) (ha : 0 < a) : n ≤ alignUp n a ∧ a ∣ alignUp n a ∧ alignUp n a < n + a := by
  unfold alignUp
  have h := Nat.div_add_mod (n + a - 1) a
  have hm := Nat.mod_lt (n + a - 1) ha
  rw [Nat.mul_comm] at h
  exact ⟨by omega, ⟨_, Nat.mul_comm _ _⟩, by omega⟩

private theorem place_ge (ss : List Slot) : ∀ (n : Nat), (∀ s ∈ ss, 0 < s.align) → ∀ (i o : Nat), (place n ss)[i]? = some o →
    n ≤ o ∧ ∃ s : Slot, ss[i]? = some s ∧ s.align ∣ o ∧ o + s.size ≤ placeEnd n ss := by
  have hend : ∀ (ss : List Slot) (n : Nat), (∀ s ∈ ss, 0 < s.align) → n ≤ placeEnd n ss := by
    intro ss
    induction ss with
    | nil => intro n _; exact Nat.le_refl n
    | cons s ss ih =>
      intro n h
      have h1 := ih (alignUp n s.align + s.size) (fun t ht => h t (List.mem_cons_of_mem _ ht))
      have h2 := (alignUp_le n s.align (h s List.mem_cons_self)).1
      unfold placeEnd
      omega
  induction ss with
  | nil => intro n _ i o h; simp [place] at h
  | cons s ss ih =>
    intro n h i o ho
    have hs := alignUp_le n s.align (h s List.mem_cons_self)
    have h' : ∀ t ∈ ss, 0 < t.align := fun t ht => h t (List.mem_cons_of_mem _ ht)
    cases i with
    | zero =>
      simp only [place, List.getElem?_cons_zero, Option.some.injEq] at ho
      subst ho
      exact ⟨hs.1, s, rfl, hs.2.1, hend ss _ h'⟩
    | succ i =>
      simp only [place, List.getElem?_cons_succ] at ho
      obtain ⟨h1, t, h2, h3, h4⟩ := ih _ h' i o ho
      exact ⟨by omega, t, by simpa using h2, h3, h4⟩

/-- **C101**, in a C struct: every field lies inside the struct at a multiple of its alignment, and fields have no byte in common. -/
theorem C101_struct (ss : List Slot) (h : ∀ s ∈ ss, 0 < s.align) :
    (∀ i o n, range ss i = some (o, n) → o + n ≤ structSize ss ∧ ∃ s : Slot, ss[i]? = some s ∧ n = s.size ∧ s.align ∣ o) ∧
    (∀ i j a b, i ≠ j → range ss i = some a → range ss j = some b → Apart a b) := by
  have hal : 0 < structAlign ss := by
    clear h
    induction ss with
    | nil => exact Nat.one_pos
    | cons s ss ih => unfold structAlign; omega
  have hr : ∀ i o n, range ss i = some (o, n) → (place 0 ss)[i]? = some o ∧ ∃ s : Slot, ss[i]? = some s ∧ n = s.size := by
    intro i o n hi
    unfold range at hi
    split at hi
    · next o' s h1 h2 =>
      simp only [Option.some.injEq, Prod.mk.injEq] at hi
      rw [← hi.1]
      exact ⟨h1, s, h2, hi.2.symm⟩
    · cases hi
  have hlt : ∀ (ss : List Slot) (m : Nat), (∀ s ∈ ss, 0 < s.align) → ∀ (i j o o' : Nat) (s : Slot), i < j → (place m ss)[i]? = some o →
      (place m ss)[j]? = some o' → ss[i]? = some s → o + s.size ≤ o' := by
    intro ss
    induction ss with
    | nil => intro m _ i j o o' s _ h1; simp [place] at h1
    | cons t ss ih =>
      intro m h i j o o' s hij h1 h2 h3
      have h' : ∀ t ∈ ss, 0 < t.align := fun t ht => h t (List.mem_cons_of_mem _ ht)
      cases j with
      | zero => omega
      | succ j =>
        simp only [place, List.getElem?_cons_succ] at h2
        cases i with
        | zero =>
          simp only [place, List.getElem?_cons_zero, Option.some.injEq] at h1 h3
          have := (place_ge ss _ h' j o' h2).1
          rw [← h3, ← h1]
          exact this
        | succ i =>
          simp only [place, List.getElem?_cons_succ] at h1 h3
          exact ih _ h' i j o o' s (by omega) h1 h2 h3
  constructor
  · intro i o n hi
    obtain ⟨h1, s, h2, h3⟩ := hr i o n hi
    obtain ⟨-, s', h4, h5, h6⟩ := place_ge ss 0 h i o h1
    rw [h2, Option.some.injEq] at h4
    subst h4
    have := (alignUp_le (placeEnd 0 ss) _ hal).1
    refine ⟨?_, s, h2, h3, h5⟩
    unfold structSize
    omega
  · intro i j a b hij ha hb
    obtain ⟨a1, a2⟩ := a
    obtain ⟨b1, b2⟩ := b
    obtain ⟨h1, s, h2, h3⟩ := hr i a1 a2 ha
    obtain ⟨h4, t, h5, h6⟩ := hr j b1 b2 hb
    unfold Apart
    rcases Nat.lt_or_gt_of_ne hij with hij | hij
    · have := hlt ss 0 h i j a1 b1 s hij h1 h4 h2
      simp only; omega
    · have := hlt ss 0 h j i b1 a1 t hij h4 h1 h5
      simp only; omega

/-! ### function blocks -/

private def isPublic (v : Section × String × VTy) : Bool := v.1 != .local

private def checkNames (b : FunctionBlock) : Bool :=
  (List.range b.vars.length).all fun i =>
    match b.vars[i]?, b.fields[i]? with
    | some v, some f => !isPublic v ||
        ((v.2.1, f.1) ∈ sameMeaning && (match v.2.2 with | .elem e => f.2 ∈ e.rust | .buffer _ => false))
    | some v, none => !isPublic v
    | none, _ => true

private def checkMem (p : Platform) (b : FunctionBlock) : Bool :=
  ((List.range b.vars.length).all fun i =>
    match b.vars[i]? with
    | some v => !isPublic v || range (b.memory p) i = range (b.native p) i
    | none => true) &&
  structSize (b.native p) ≤ structSize (b.memory p) && structAlign (b.memory p) % structAlign (b.native p) = 0

private theorem names_ok : ∀ b ∈ functionBlocks, checkNames b = true := by decide +kernel

set_option maxRecDepth 10000 in
private theorem mem_ok : ∀ a ∈ [4, 8], ∀ al ∈ [1, 2, 4, 8], ∀ n ∈ List.range 25, a % al = 0 → n % al = 0 →
    ∀ b ∈ functionBlocks, checkMem ⟨a, n, al⟩ b = true := by decide +kernel

private theorem native_pos {p : Platform} (hp : p.Usual) (b : FunctionBlock) : ∀ s ∈ b.native p, 0 < s.align := by
  intro s hs
  obtain ⟨f, -, rfl⟩ := List.mem_map.1 hs
  have h0 : 0 < p.align64 := by rcases hp.align64 with h | h <;> omega
  have h1 : 0 < p.instantAlign := by
    rcases Nat.eq_zero_or_pos p.instantAlign with h | h
    · have := hp.align
      rw [h, Nat.zero_dvd] at this
      omega
    · exact h
  rcases f.2 with _ | _ | _ | _ | _ | _ | _ | _ | _ | _ | _ | _ | _ <;> simp only [RTy.slot] <;> omega

/-- **C101**: for every function block of the library, on every usual platform, the native code finds every input and output where
the ST compiler puts it, with the same type; it stays inside the instance; and what it keeps for itself is apart from the inputs
and outputs. -/
theorem C101_function_blocks (p : Platform) (hp : p.Usual) (b : FunctionBlock) (hb : b ∈ functionBlocks) :
    (∀ i k x t, b.vars[i]? = some (k, x, t) → k ≠ .local →
      ∃ f r e, b.fields[i]? = some (f, r) ∧ (x, f) ∈ sameMeaning ∧ t = .elem e ∧ r ∈ e.rust ∧
        range (b.memory p) i = range (b.native p) i ∧
        ∀ j m n, j ≠ i → range (b.native p) j = some m → range (b.memory p) i = some n → Apart m n) ∧
    structSize (b.native p) ≤ structSize (b.memory p) ∧ structAlign (b.native p) ∣ structAlign (b.memory p) := by
  have hm : checkMem p b = true := by
    obtain ⟨a, n, al⟩ := p
    have h1 := hp.align64
    have h2 := hp.size
    have h3 := hp.align
    have h4 := hp.multiple
    simp only at h1 h2 h3 h4
    refine mem_ok a (by simpa using h1) al ?_ n (by simp; omega) (Nat.mod_eq_zero_of_dvd h3) (Nat.mod_eq_zero_of_dvd h4) b hb
    have hle : al ≤ 8 := by
      rcases h1 with h1 | h1
      · exact Nat.le_trans (Nat.le_of_dvd (by omega) h3) (by omega)
      · exact Nat.le_trans (Nat.le_of_dvd (by omega) h3) (by omega)
    obtain ⟨c, hc⟩ := h3
    have : al = 0 ∨ al = 1 ∨ al = 2 ∨ al = 3 ∨ al = 4 ∨ al = 5 ∨ al = 6 ∨ al = 7 ∨ al = 8 := by omega
    rcases this with h | h | h | h | h | h | h | h | h <;> subst h <;> first | decide | (exfalso; omega)
  have hn := names_ok b hb
  unfold checkMem at hm
  simp only [Bool.and_eq_true, decide_eq_true_eq] at hm
  obtain ⟨⟨hm1, hm2⟩, hm3⟩ := hm
  refine ⟨?_, hm2, Nat.dvd_of_mod_eq_zero hm3⟩
  intro i k x t hv hk
  have hi : i < b.vars.length := by
    rcases Nat.lt_or_ge i b.vars.length with h | h
    · exact h
    · rw [List.getElem?_eq_none h] at hv; cases hv
  have hpub : isPublic (k, x, t) = true := by
    simp only [isPublic, bne_iff_ne, ne_eq]
    exact hk
  have e1 := List.all_eq_true.1 hm1 i (List.mem_range.2 hi)
  rw [hv] at e1
  simp only [hpub, Bool.not_true, Bool.false_or, decide_eq_true_eq] at e1
  unfold checkNames at hn
  have e2 := List.all_eq_true.1 hn i (List.mem_range.2 hi)
  rw [hv] at e2
  cases hf : b.fields[i]? with
  | none => rw [hf] at e2; simp [hpub] at e2
  | some f =>
    rw [hf] at e2
    simp only [hpub, Bool.not_true, Bool.false_or, Bool.and_eq_true, decide_eq_true_eq] at e2
    obtain ⟨e3, e4⟩ := e2
    cases t with
    | buffer n => simp at e4
    | elem e =>
      simp only [decide_eq_true_eq] at e4
      refine ⟨f.1, f.2, e, rfl, e3, rfl, e4, e1, ?_⟩
      intro j m n hij hj hi'
      rw [e1] at hi'
      exact (C101_struct _ (native_pos hp b)).2 j i m n hij hj hi'

/-- The bound of 24 bytes is needed: with anything larger the timer's native code writes outside the instance. -/
example : ∀ n, 24 < n → 8 ∣ n → ∃ b ∈ functionBlocks, structSize (b.memory ⟨8, n, 8⟩) < structSize (b.native ⟨8, n, 8⟩) := by
  intro n hn hd
  refine ⟨functionBlocks[22], List.getElem_mem _, ?_⟩
  simp [functionBlocks, FunctionBlock.memory, FunctionBlock.native, VTy.slot, RTy.slot, structSize, placeEnd, structAlign, alignUp]
  omega

/-- Linux on 64 bit, with either way to store an `Option<Instant>`; a 32-bit platform. -/
example : Platform.Usual ⟨8, 24, 8⟩ ∧ Platform.Usual ⟨8, 16, 8⟩ ∧ Platform.Usual ⟨4, 12, 4⟩ :=
  ⟨⟨by decide, by decide, by decide, by decide⟩, ⟨by decide, by decide, by decide, by decide⟩,
    ⟨by decide, by decide, by decide, by decide⟩⟩

/-- The timer TON on 64-bit Linux: the buffer starts at byte 33 of the 64 bytes, the native field at byte 40. -/
example : ((functionBlocks.filter (·.name = "TON")).map fun b =>
    (place 0 (b.memory ⟨8, 24, 8⟩), structSize (b.memory ⟨8, 24, 8⟩), place 0 (b.native ⟨8, 24, 8⟩), structSize (b.native ⟨8, 24, 8⟩)))
    = [([0, 8, 16, 24, 32, 33], 64, [0, 8, 16, 24, 32, 40], 64)] := by decide +kernel

/-- A counter with PV and CV before the flags would be wrong: the checks are not vacuous. -/
example : range [⟨2, 2⟩, ⟨1, 1⟩, ⟨1, 1⟩] 1 ≠ range [⟨1, 1⟩, ⟨1, 1⟩, ⟨2, 2⟩] 1 := by decide

/-! ### functions -/

/-- The names without an implementation. -/
def withoutImplementation : List String :=
  ["SHL__BOOL", "SHR__BOOL", "ROL__BOOL", "ROR__BOOL", "IS_VALID_BCD__BOOL",
   "ABS__USINT", "ABS__UINT", "ABS__UDINT", "ABS__ULINT",
   "MAX__STRING", "MAX__WSTRING", "MIN__STRING", "MIN__WSTRING", "LIMIT__STRING", "LIMIT__WSTRING",
   "CONCAT_DATE__SINT", "CONCAT_DATE__USINT", "CONCAT_DT__SINT", "CONCAT_DT__USINT", "CONCAT_LDT__SINT", "CONCAT_LDT__USINT",
   "SPLIT_DATE__SINT", "SPLIT_DATE__USINT", "SPLIT_TOD__SINT", "SPLIT_TOD__USINT", "SPLIT_LTOD__SINT", "SPLIT_LTOD__USINT",
   "SPLIT_DT__SINT", "SPLIT_DT__USINT", "SPLIT_LDT__SINT", "SPLIT_LDT__USINT", "SPLIT_LDT__INT", "SPLIT_LDT__UINT",
   "SPLIT_LDT__DINT", "SPLIT_LDT__UDINT", "SPLIT_LDT__LINT", "SPLIT_LDT__ULINT",
   "TO_BIG_ENDIAN__BOOL", "TO_BIG_ENDIAN__BYTE", "TO_BIG_ENDIAN__SINT", "TO_BIG_ENDIAN__USINT", "TO_BIG_ENDIAN__TIME",
   "TO_BIG_ENDIAN__CHAR", "TO_BIG_ENDIAN__STRING", "TO_BIG_ENDIAN__WSTRING",
   "TO_LITTLE_ENDIAN__BOOL", "TO_LITTLE_ENDIAN__BYTE", "TO_LITTLE_ENDIAN__SINT", "TO_LITTLE_ENDIAN__USINT",
   "TO_LITTLE_ENDIAN__TIME", "TO_LITTLE_ENDIAN__CHAR", "TO_LITTLE_ENDIAN__STRING", "TO_LITTLE_ENDIAN__WSTRING",
   "FROM_BIG_ENDIAN__BOOL", "FROM_BIG_ENDIAN__BYTE", "FROM_BIG_ENDIAN__SINT", "FROM_BIG_ENDIAN__USINT", "FROM_BIG_ENDIAN__TIME",
   "FROM_BIG_ENDIAN__CHAR", "FROM_BIG_ENDIAN__STRING", "FROM_BIG_ENDIAN__WSTRING",
   "FROM_LITTLE_ENDIAN__BOOL", "FROM_LITTLE_ENDIAN__BYTE", "FROM_LITTLE_ENDIAN__SINT", "FROM_LITTLE_ENDIAN__USINT",
   "FROM_LITTLE_ENDIAN__TIME", "FROM_LITTLE_ENDIAN__CHAR", "FROM_LITTLE_ENDIAN__STRING", "FROM_LITTLE_ENDIAN__WSTRING"]

/-- **C102** is false: some functions that the ST files declare have no implementation, among them SPLIT_LDT for every type. -/
theorem C102_refuted : ¬ ∀ f ∈ functions, f.callable = true := by decide +kernel

/-- **C102**, what holds: exactly the functions of the list `withoutImplementation` cannot be called; every other function, for every
type that its declaration admits, has an implementation with the declared parameters, in order, and the declared result. -/
theorem C102_partial : ∀ f ∈ functions, f.callable = true ↔ f.name ∉ withoutImplementation := by decide +kernel

/-- The functions named in the list are declared. -/
example : ∀ n ∈ withoutImplementation, ∃ f ∈ functions, f.name = n := by decide +kernel

/-- What fits: REPLACE_EXT takes two strings, length, position and the result's address in this order, and other orders do not fit. -/
example : fits [.inputRef .STRING, .inputRef .STRING, .input .DINT, .input .DINT, .inOut .STRING]
      [.constPtr .u8, .constPtr .u8, .val .i32, .val .i32, .mutPtr .u8] = true ∧
    fits [.inputRef .STRING, .inputRef .STRING, .input .DINT, .input .DINT, .inOut .STRING]
      [.mutPtr .u8, .constPtr .u8, .constPtr .u8, .val .i32, .val .i32] = false ∧
    fits [.input .UDINT] [.val .i32] = false ∧ fits [.output .INT] [.mutPtr .i32] = false := by decide

end Verif.Abi
