import Verif.Props.Bits
/-
C160: values in a telegram between two controllers.
-/
namespace Verif
open Spec

/-! ### Specification -/

/-- The byte order of a telegram. -/
inductive WireOrder where
  | big | little
  deriving DecidableEq

/-- The function that a sender applies to a value of `n` bytes. -/
def WireOrder.to (order : WireOrder) (host : Host) (n x : Nat) : Nat :=
  match order with
  | .big => TO_BIG_ENDIAN host n x
  | .little => TO_LITTLE_ENDIAN host n x

/-- The function that a receiver is meant to apply. -/
def WireOrder.from (order : WireOrder) (host : Host) (n x : Nat) : Nat :=
  match order with
  | .big => FROM_BIG_ENDIAN host n x
  | .little => FROM_LITTLE_ENDIAN host n x

/-- The same for REAL and LREAL. -/
def WireOrder.toF (order : WireOrder) (n x : Nat) : Nat :=
  match order with
  | .big => TO_BIG_ENDIAN_F n x
  | .little => TO_LITTLE_ENDIAN_F n x

def WireOrder.fromF (order : WireOrder) (n x : Nat) : Nat :=
  match order with
  | .big => FROM_BIG_ENDIAN_F n x
  | .little => FROM_LITTLE_ENDIAN_F n x

/-- A telegram: the values `f.2` of `f.1` bytes, as they lie in the memory of the sender after `convert`. -/
def telegram (sender : Host) (convert : Nat → Nat → Nat) (fields : List (Nat × Nat)) : List Nat :=
  fields.flatMap fun f => inMemory sender f.1 (convert f.1 f.2)

/-- The values of `sizes` bytes that a receiver finds in `bytes`, without any conversion. -/
def Found (receiver : Host) : List Nat → List Nat → List Nat → Prop
  | [], bytes, found => bytes = [] ∧ found = []
  | n :: sizes, bytes, y :: found => y < 256 ^ n ∧ inMemory receiver n y = bytes.take n ∧ Found receiver sizes (bytes.drop n) found
  | _ :: _, _, [] => False

/-- The values fit into their sizes. -/
def FieldsFit (fields : List (Nat × Nat)) : Prop := ∀ f ∈ fields, f.2 < 256 ^ f.1

/-- A telegram that `sender` writes with TO_..._ENDIAN and `receiver` reads with FROM_..._ENDIAN arrives as it was sent. -/
def Arrives (order : WireOrder) (sender receiver : Host) : Prop :=
  ∀ fields found, FieldsFit fields → Found receiver (fields.map (·.1)) (telegram sender (order.to sender) fields) found →
    List.zipWith (order.from receiver) (fields.map (·.1)) found = fields.map (·.2)

/-! ### Bytes -/

private theorem byte_ext : ∀ (n x y : Nat), x < 256 ^ n → y < 256 ^ n → (∀ k < n, byteAt x k = byteAt y k) → x = y
  | 0, x, y, hx, hy, _ => by simp at hx hy; omega
  | n + 1, x, y, hx, hy, h => by
    have h0 := h 0 (by omega)
    simp only [byteAt, Nat.pow_zero, Nat.div_one] at h0
    have := byte_ext n (x / 256) (y / 256) (by rw [Nat.pow_succ] at hx; omega) (by rw [Nat.pow_succ] at hy; omega) fun k hk => by
      have := h (k + 1) (by omega)
      simp only [byteAt, Nat.pow_succ, Nat.mul_comm (256 ^ k) 256, ← Nat.div_div_eq_div_mul] at this
      exact this
    omega

private theorem memory_get {host : Host} {n x k : Nat} (hk : k < n) :
    (inMemory host n x)[k]? = some (byteAt x (match host with | .little => k | .big => n - 1 - k)) := by
  unfold inMemory
  rw [List.getElem?_map, List.getElem?_range hk]
  cases host <;> rfl

private theorem memory_length (host : Host) (n x : Nat) : (inMemory host n x).length = n := by simp [inMemory]

/-- The bytes of a value that lies in the memory as `x` does on another host. -/
private theorem same_memory {a b : Host} {n x y : Nat} (h : inMemory b n y = inMemory a n x) {k : Nat} (hk : k < n) :
    byteAt y k = if a = b then byteAt x k else byteAt x (n - 1 - k) := by
  have e : n - 1 - (n - 1 - k) = k := by omega
  have h1 := congrArg (fun l : List Nat => l[k]?) h
  have h2 := congrArg (fun l : List Nat => l[n - 1 - k]?) h
  rw [memory_get hk, memory_get hk] at h1
  rw [memory_get (by omega), memory_get (by omega)] at h2
  cases a <;> cases b <;> simp only [Option.some.injEq, e] at h1 h2 <;> simp only [if_true, reduceCtorEq, if_false] <;> first | exact h1 | exact h2

/-- A receiver finds exactly one value in the bytes of another one. -/
private theorem found_one (a b : Host) (n x : Nat) (hx : x < 256 ^ n) : ∃ y, y < 256 ^ n ∧ inMemory b n y = inMemory a n x := by
  by_cases h : a = b
  · exact ⟨x, hx, by rw [h]⟩
  · obtain ⟨c1, -, c3, -, -⟩ := C27_swap a n x hx
    have big := (C27_memory a n x hx).1
    have little := (C27_memory a n x hx).2
    cases a with
    | little =>
      cases b with
      | little => exact absurd rfl h
      | big =>
        refine ⟨TO_LITTLE_ENDIAN .big n x, (C27_swap .big n x hx).2.2.1, ?_⟩
        rw [(C27_memory .big n x hx).2, ← little]
        rfl
    | big =>
      cases b with
      | big => exact absurd rfl h
      | little =>
        refine ⟨TO_BIG_ENDIAN .little n x, (C27_swap .little n x hx).1, ?_⟩
        rw [(C27_memory .little n x hx).1, ← big]
        rfl

private theorem found_cons {b a : Host} {convert : Nat → Nat → Nat} {n x : Nat} {fields : List (Nat × Nat)} {y : Nat} {found : List Nat} :
    Found b (((n, x) :: fields).map (·.1)) (telegram a convert ((n, x) :: fields)) (y :: found) ↔
      y < 256 ^ n ∧ inMemory b n y = inMemory a n (convert n x) ∧ Found b (fields.map (·.1)) (telegram a convert fields) found := by
  have hl := memory_length a n (convert n x)
  simp only [telegram, List.flatMap_cons, List.map_cons, Found]
  rw [List.take_append_of_le_length (by omega), List.take_of_length_le (by omega), List.drop_append_of_le_length (by omega), List.drop_of_length_le (by omega), List.nil_append]

private theorem found_zip {a b : Host} {convert back : Nat → Nat → Nat} (P : Nat → Nat → Nat → Prop)
    (h : ∀ n x y, x < 256 ^ n → y < 256 ^ n → inMemory b n y = inMemory a n (convert n x) → P n x (back n y)) :
    ∀ (fields : List (Nat × Nat)) (found : List Nat), FieldsFit fields → Found b (fields.map (·.1)) (telegram a convert fields) found →
      List.Forall₂ (fun f z => P f.1 f.2 z) fields (List.zipWith back (fields.map (·.1)) found)
  | [], _, _, hf => by rw [hf.2]; exact .nil
  | (n, x) :: fields, [], _, hf => hf.elim
  | (n, x) :: fields, y :: found, hfit, hf => by
    obtain ⟨h1, h2, h3⟩ := found_cons.1 hf
    exact .cons (h n x y (hfit _ List.mem_cons_self) h1 h2) (found_zip P h fields found (fun f hf => hfit f (List.mem_cons_of_mem _ hf)) h3)

private theorem to_lt (order : WireOrder) (host : Host) {n x : Nat} (hx : x < 256 ^ n) : order.to host n x < 256 ^ n := by
  obtain ⟨c1, -, c3, -, -⟩ := C27_swap host n x hx
  cases order
  · exact c1
  · exact c3

private theorem wire_byte (order : WireOrder) {a b : Host} {n x y : Nat} (hx : x < 256 ^ n) (h : inMemory b n y = inMemory a n (order.to a n x)) {k : Nat} (hk : k < n) :
    byteAt y k = if (order = .little ↔ b = .little) then byteAt x k else byteAt x (n - 1 - k) := by
  have e : n - 1 - (n - 1 - k) = k := by omega
  rw [same_memory h hk]
  have r1 := C27_roles a n x k hx hk
  have r2 := C27_roles a n x (n - 1 - k) hx (by omega)
  rw [e] at r2
  cases order <;> cases a <;> cases b <;> simp only [WireOrder.to, r1, r2, if_true, if_false, reduceCtorEq, iff_true, iff_false, not_true, iff_self]

private theorem to_byte (order : WireOrder) (b : Host) {n y k : Nat} (hy : y < 256 ^ n) (hk : k < n) :
    byteAt (order.to b n y) k = if (order = .little ↔ b = .little) then byteAt y k else byteAt y (n - 1 - k) := by
  have r1 := C27_roles b n y k hy hk
  cases order <;> cases b <;> simp only [WireOrder.to, r1, if_true, if_false, reduceCtorEq, iff_true, iff_false, not_true, iff_self]

private theorem from_byte (order : WireOrder) (b : Host) {n y k : Nat} (hy : y < 256 ^ n) (hk : k < n) :
    byteAt (order.from b n y) k = if (order = .little ↔ b = .little) then byteAt y (n - 1 - k) else byteAt y k := by
  have r1 := C27_roles b n y k hy hk
  cases order <;> cases b <;> simp only [WireOrder.from, r1, if_true, if_false, reduceCtorEq, iff_true, iff_false, not_true, iff_self]

/-! ### Telegrams -/

/-- A receiver finds values in every telegram, and no others. -/
theorem C160_found (order : WireOrder) (sender receiver : Host) : ∀ (fields : List (Nat × Nat)), FieldsFit fields →
    ∃! found, Found receiver (fields.map (·.1)) (telegram sender (order.to sender) fields) found
  | [], _ => ⟨[], ⟨rfl, rfl⟩, fun _ h => h.2⟩
  | (n, x) :: fields, hfit => by
    have hx := hfit _ List.mem_cons_self
    obtain ⟨found, h1, h2⟩ := C160_found order sender receiver fields fun f hf => hfit f (List.mem_cons_of_mem _ hf)
    obtain ⟨y, h3, h4⟩ := found_one sender receiver n _ (to_lt order sender hx)
    refine ⟨y :: found, found_cons.2 ⟨h3, h4, h1⟩, fun other ho => ?_⟩
    cases other with
    | nil => exact ho.elim
    | cons z other =>
      obtain ⟨o1, o2, o3⟩ := found_cons.1 ho
      rw [h2 other o3, byte_ext n z y o1 h3 fun k hk => by rw [same_memory o2 hk, same_memory h4 hk]]

/-- **C160**, what holds: whatever the byte orders of the two hosts are, a receiver that applies FROM_..._ENDIAN gets every value with its bytes in the opposite order. -/
theorem C160_swapped_partial (order : WireOrder) (sender receiver : Host) (fields : List (Nat × Nat)) (found : List Nat) (hfit : FieldsFit fields)
    (hf : Found receiver (fields.map (·.1)) (telegram sender (order.to sender) fields) found) :
    List.Forall₂ (fun f z => ∀ k < f.1, byteAt z k = byteAt f.2 (f.1 - 1 - k)) fields (List.zipWith (order.from receiver) (fields.map (·.1)) found) :=
  found_zip (fun n x z => ∀ k < n, byteAt z k = byteAt x (n - 1 - k)) (fun n x y hx hy h k hk => by
    have e : n - 1 - (n - 1 - k) = k := by omega
    rw [from_byte order receiver hy hk, wire_byte order hx h hk, wire_byte order hx h (by omega : n - 1 - k < n), e]
    split <;> rfl) fields found hfit hf

/-- **C160**, what helps: a receiver that applies TO_..._ENDIAN as the sender did gets the values that were sent. -/
theorem C160_right_partial (order : WireOrder) (sender receiver : Host) (fields : List (Nat × Nat)) (found : List Nat) (hfit : FieldsFit fields)
    (hf : Found receiver (fields.map (·.1)) (telegram sender (order.to sender) fields) found) :
    List.zipWith (order.to receiver) (fields.map (·.1)) found = fields.map (·.2) := by
  have := found_zip (back := order.to receiver) (fun n x z => z = x) (fun n x y hx hy h => byte_ext n _ _ (to_lt order receiver hy) hx fun k hk => by
    have e : n - 1 - (n - 1 - k) = k := by omega
    rw [to_byte order receiver hy hk, wire_byte order hx h hk, wire_byte order hx h (by omega : n - 1 - k < n), e]
    split <;> rfl) fields found hfit hf
  generalize List.zipWith (order.to receiver) (fields.map (·.1)) found = l at this
  clear hf hfit
  induction this with
  | nil => rfl
  | cons h _ ih => rw [h, ih, List.map_cons]

/-- **C160 is false** for both byte orders and all hosts: the WORD 1 arrives as 256. -/
theorem C160_refuted (order : WireOrder) (sender receiver : Host) : ¬ Arrives order sender receiver := by
  intro h
  have hfit : FieldsFit [(2, 1)] := by intro f hf; rw [List.mem_singleton.1 hf]; decide
  obtain ⟨found, hf, -⟩ := C160_found order sender receiver [(2, 1)] hfit
  have h1 := h _ found hfit hf
  have h2 := C160_swapped_partial order sender receiver _ found hfit hf
  rw [h1] at h2
  cases h2 with
  | cons h2 _ => exact absurd (h2 0 (by decide)) (by decide)

/-- **C160**, REAL and LREAL: the values arrive if both hosts have the same byte order, and with their bytes in the opposite order otherwise, whichever order the telegram is meant to have. -/
theorem C160_float_partial (order : WireOrder) (sender receiver : Host) (fields : List (Nat × Nat)) (found : List Nat) (hfit : FieldsFit fields)
    (hf : Found receiver (fields.map (·.1)) (telegram sender order.toF fields) found) :
    List.Forall₂ (fun f z => z < 256 ^ f.1 ∧ ∀ k < f.1, byteAt z k = if sender = receiver then byteAt f.2 k else byteAt f.2 (f.1 - 1 - k)) fields
      (List.zipWith order.fromF (fields.map (·.1)) found) :=
  found_zip (fun n x z => z < 256 ^ n ∧ ∀ k < n, byteAt z k = if sender = receiver then byteAt x k else byteAt x (n - 1 - k)) (fun n x y hx hy h => by
    have c := C29_partial n x hx
    have d := C29_partial n y hy
    have e : order.toF n x = x := by cases order; exacts [c.1, c.2.1]
    have e' : order.fromF n y = y := by cases order; exacts [d.2.2.1, d.2.2.2]
    rw [e] at h
    rw [e']
    exact ⟨hy, fun k hk => same_memory h hk⟩) fields found hfit hf

/-! ### Examples -/

/-- A WORD, a BYTE and a DWORD, big-endian, from a little-endian host to a big-endian one. -/
example : FieldsFit [(2, 0x1234), (1, 0x56), (4, 0x789ABCDE)] ∧
    telegram .little (WireOrder.big.to .little) [(2, 0x1234), (1, 0x56), (4, 0x789ABCDE)] = [0x12, 0x34, 0x56, 0x78, 0x9A, 0xBC, 0xDE] ∧
    Found .big [2, 1, 4] [0x12, 0x34, 0x56, 0x78, 0x9A, 0xBC, 0xDE] [0x1234, 0x56, 0x789ABCDE] ∧
    List.zipWith (WireOrder.big.from .big) [2, 1, 4] [0x1234, 0x56, 0x789ABCDE] = [0x3412, 0x56, 0xDEBC9A78] ∧
    List.zipWith (WireOrder.big.to .big) [2, 1, 4] [0x1234, 0x56, 0x789ABCDE] = [0x1234, 0x56, 0x789ABCDE] := by
  refine ⟨by unfold FieldsFit; decide, by decide, ?_, by decide, by decide⟩
  exact ⟨by decide, by decide, by decide, by decide, by decide, by decide, rfl, rfl⟩

/-- A REAL (1.0) from a little-endian host: a little-endian host finds it, a big-endian one does not. -/
example : telegram .little WireOrder.big.toF [(4, 0x3F800000)] = [0, 0, 0x80, 0x3F] ∧ Found .little [4] [0, 0, 0x80, 0x3F] [0x3F800000] ∧
    Found .big [4] [0, 0, 0x80, 0x3F] [0x803F] :=
  ⟨by decide, ⟨by decide, by decide, rfl, rfl⟩, ⟨by decide, by decide, rfl, rfl⟩⟩

end Verif
