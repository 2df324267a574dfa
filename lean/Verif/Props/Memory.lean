import Verif.Spec.Memory
import Verif.Props.Abi
import Verif.Proofs.Ints
import Verif.Proofs.Lists
/-
C145: function block instances in the memory of a program do not influence one another.
-/
namespace Verif.Abi

/-! ### bytes -/

private theorem readBytes_get (m : Mem) (a n i : Nat) : (readBytes m a n)[i]? = if i < n then some (m (a + i)) else none := by
  unfold readBytes
  by_cases h : i < n
  · simp [h]
  · simp [h]

private theorem read_write (m : Mem) (a : Nat) (bs : List Nat) : readBytes (writeBytes m a bs) a bs.length = bs := by
  apply List.ext_getElem?
  intro i
  rw [readBytes_get]
  split
  · rename_i h
    simp only [writeBytes]
    rw [if_pos (by omega), show a + i - a = i by omega, List.getD_eq_getElem?_getD, List.getElem?_eq_getElem h]
    simp
  · rename_i h
    rw [List.getElem?_eq_none (by omega)]

private theorem read_congr {m m' : Mem} {a n : Nat} (h : ∀ x, a ≤ x → x < a + n → m x = m' x) : readBytes m a n = readBytes m' a n := by
  apply List.ext_getElem?
  intro i
  rw [readBytes_get, readBytes_get]
  split
  · rw [h _ (by omega) (by omega)]
  · rfl

private theorem write_out (m : Mem) (a : Nat) (bs : List Nat) {x : Nat} (h : x < a ∨ a + bs.length ≤ x) :
    writeBytes m a bs x = m x := by
  unfold writeBytes
  rw [if_neg (by omega)]

private theorem le_length (n : Nat) : ∀ x, (toLeBytes n x).length = n := by
  induction n with
  | zero => intro x; rfl
  | succ n ih => intro x; simp [toLeBytes, ih]

private theorem le_back (n : Nat) : ∀ x, x < 256 ^ n → fromLeBytes (toLeBytes n x) = x := by
  induction n with
  | zero => intro x hx; simp [toLeBytes, fromLeBytes] at *; omega
  | succ n ih =>
    intro x hx
    rw [Nat.pow_succ] at hx
    simp only [toLeBytes, fromLeBytes]
    rw [ih _ (by omega)]; omega

/-! ### values -/

private theorem int_back (t : IntTy) (ht : 0 < t.bits) (n : Nat) (hn : 256 ^ n = 2 ^ t.bits) {x : Int} (hx : t.InRange x) :
    t.wrap (fromLeBytes (toLeBytes n (x % ((256 ^ n : Nat) : Int)).toNat)) = x := by
  have hpos : (0 : Int) < ((256 ^ n : Nat) : Int) := by
    have : 0 < 256 ^ n := Nat.pow_pos (by omega)
    omega
  have h1 := Int.emod_nonneg x (b := ((256 ^ n : Nat) : Int)) (by omega)
  have h2 := Int.emod_lt_of_pos x hpos
  rw [le_back n _ (by omega), Int.toNat_of_nonneg h1]
  refine t.eq_of_congr ht (t.wrap_inRange ht _) hx ?_
  have h3 := t.wrap_congr (x % ((256 ^ n : Nat) : Int))
  have h4 : ((2 ^ t.bits : Nat) : Int) ∣ x % ((256 ^ n : Nat) : Int) - x := by
    rw [hn]
    refine ⟨-(x / ((2 ^ t.bits : Nat) : Int)), ?_⟩
    have := Int.emod_add_mul_ediv x ((2 ^ t.bits : Nat) : Int)
    rw [Int.mul_neg]; omega
  have := Int.dvd_add h3 h4
  rwa [show t.wrap (x % ((256 ^ n : Nat) : Int)) - x % ((256 ^ n : Nat) : Int) + (x % ((256 ^ n : Nat) : Int) - x)
    = t.wrap (x % ((256 ^ n : Nat) : Int)) - x by omega] at this

private theorem store_length {mc : Machine} (hm : mc.Ok) {ty : RTy} {v : Val} (h : Val.Of ty v) :
    (ty.store mc v).length = (ty.slot mc.platform).size := by
  have hs := hm.size
  cases ty <;> cases v <;> simp only [Val.Of] at h <;> simp only [RTy.store, RTy.slot] <;>
    first
    | rfl
    | (cases mc.host <;> simp [toBeBytes, le_length])
    | exact hs _ h

private theorem load_store {mc : Machine} (hm : mc.Ok) {ty : RTy} {v : Val} (h : Val.Of ty v) :
    ty.load mc (ty.store mc v) = .ok v := by
  have hb := hm.back
  cases ty <;> cases v <;> simp only [Val.Of] at h <;> simp only [RTy.store, RTy.slot] <;>
    first
    | (rename_i b; cases b <;> rfl)
    | (simp only [RTy.load]; rw [hb _ h]; rfl)
    | (simp only [RTy.load]
       cases mc.host
       · simp only
         exact congrArg _ (congrArg _ (int_back _ (by decide) _ (by decide) h))
       · simp only [toBeBytes, fromBeBytes, List.reverse_reverse]
         exact congrArg _ (congrArg _ (int_back _ (by decide) _ (by decide) h)))

/-! ### fields -/

private theorem place_length (ss : List Slot) : ∀ n, (place n ss).length = ss.length := by
  induction ss with
  | nil => intro n; rfl
  | cons s ss ih => intro n; simp [place, ih]

private theorem range_eq {ss : List Slot} {i : Nat} {s : Slot} (h : ss[i]? = some s) : range ss i = some (offset ss i, s.size) := by
  have hi : i < (place 0 ss).length := by
    rw [place_length]
    rcases Nat.lt_or_ge i ss.length with h' | h'
    · exact h'
    · rw [List.getElem?_eq_none h'] at h; cases h
  unfold range offset
  rw [List.getElem?_eq_getElem hi, h, List.getD_eq_getElem?_getD, List.getElem?_eq_getElem hi]
  rfl

private theorem native_range {p : Platform} {b : FunctionBlock} {i : Nat} {f : String} {ty : RTy} (h : b.fields[i]? = some (f, ty)) :
    range (b.native p) i = some (offset (b.native p) i, (ty.slot p).size) := by
  refine range_eq ?_
  unfold FunctionBlock.native
  rw [List.getElem?_map, h]; rfl

private theorem native_pos {p : Platform} (hp : p.Usual) (b : FunctionBlock) : ∀ s ∈ b.native p, 0 < s.align := by
  intro s hs
  obtain ⟨f, -, rfl⟩ := List.mem_map.1 hs
  have h0 : 0 < p.align64 := by rcases hp.align64 with h | h <;> omega
  have h1 : 0 < p.instantAlign := by
    rcases Nat.eq_zero_or_pos p.instantAlign with h | h
    · have := hp.align
      rw [h, Nat.zero_dvd] at this
      omega
    · exact h
  rcases f.2 with _ | _ | _ | _ | _ | _ | _ | _ | _ | _ | _ | _ | _ <;> simp only [RTy.slot] <;> omega

/-- Two fields are apart, and a field is inside the instance. -/
private theorem fields_apart {mc : Machine} (hm : mc.Ok) {b : FunctionBlock} {i j : Nat} {f g : String} {s t : RTy}
    (hi : b.fields[i]? = some (f, s)) (hj : b.fields[j]? = some (g, t)) (hij : i ≠ j) :
    offset (b.native mc.platform) i + (s.slot mc.platform).size ≤ offset (b.native mc.platform) j ∨
      offset (b.native mc.platform) j + (t.slot mc.platform).size ≤ offset (b.native mc.platform) i :=
  (C101_struct _ (native_pos hm.usual b)).2 i j _ _ hij (native_range hi) (native_range hj)

private theorem field_inside {mc : Machine} (hm : mc.Ok) {b : FunctionBlock} (hb : b ∈ functionBlocks) {i : Nat} {f : String} {s : RTy}
    (hi : b.fields[i]? = some (f, s)) :
    offset (b.native mc.platform) i + (s.slot mc.platform).size ≤ structSize (b.memory mc.platform) := by
  have h1 := ((C101_struct _ (native_pos hm.usual b)).1 i _ _ (native_range hi)).1
  have h2 := (C101_function_blocks mc.platform hm.usual b hb).2.1
  omega

private theorem load_stored {mc : Machine} (hm : mc.Ok) {b : FunctionBlock} {i : Nat} {s : RTy} {base : Nat} {m : Mem} {v : Val}
    (hv : Val.Of s v) : loadField mc b base (storeField mc b base m i s v) i s = .ok v := by
  unfold loadField storeField
  rw [← store_length hm hv, read_write, load_store hm hv]

private theorem load_other {mc : Machine} (hm : mc.Ok) {b : FunctionBlock} {i j : Nat} {f g : String} {s t : RTy} {base : Nat} {m : Mem}
    {v : Val} (hi : b.fields[i]? = some (f, s)) (hj : b.fields[j]? = some (g, t)) (hij : i ≠ j) (hv : Val.Of s v) :
    loadField mc b base (storeField mc b base m i s v) j t = loadField mc b base m j t := by
  unfold loadField storeField
  congr 1
  refine read_congr fun x h1 h2 => write_out _ _ _ ?_
  rw [store_length hm hv]
  have := fields_apart hm hi hj hij
  omega

private theorem store_out {mc : Machine} (hm : mc.Ok) {b : FunctionBlock} (hb : b ∈ functionBlocks) {i : Nat} {f : String} {s : RTy}
    {base : Nat} {m : Mem} {v : Val} (hi : b.fields[i]? = some (f, s)) (hv : Val.Of s v) {a : Nat}
    (ha : ¬ (base ≤ a ∧ a < base + structSize (b.memory mc.platform))) : storeField mc b base m i s v a = m a := by
  have := field_inside hm hb hi
  refine write_out _ _ _ ?_
  rw [store_length hm hv]
  omega

/-- The values of the fields from the `i`-th on, each of its type. -/
private def Typed (tys : List RTy) (vs : List Val) : Prop := List.Forall₂ Val.Of tys vs

private theorem typed_of_get (tys : List RTy) : ∀ vs : List Val, vs.length = tys.length →
    (∀ (i : Nat) ty v, tys[i]? = some ty → vs[i]? = some v → Val.Of ty v) → Typed tys vs := by
  induction tys with
  | nil => intro vs h _; cases vs <;> simp at h; exact .nil
  | cons ty tys ih =>
    intro vs hl h
    cases vs with
    | nil => simp at hl
    | cons v vs =>
      exact .cons (h 0 ty v rfl rfl) (ih vs (by simpa using hl) fun i t w h1 h2 =>
        h (i + 1) t w (by simpa using h1) (by simpa using h2))

private theorem typed_get {tys : List RTy} {vs : List Val} (h : Typed tys vs) :
    vs.length = tys.length ∧ ∀ (i : Nat) ty, tys[i]? = some ty → ∃ v, vs[i]? = some v ∧ Val.Of ty v := by
  induction h with
  | nil => exact ⟨rfl, fun i ty h => by simp at h⟩
  | @cons t v tys vs hv _ ih =>
    refine ⟨by simp [ih.1], ?_⟩
    intro i ty h
    cases i with
    | zero =>
      simp only [List.getElem?_cons_zero, Option.some.injEq] at h
      subst h
      exact ⟨v, rfl, hv⟩
    | succ i => exact ih.2 i ty (by simpa using h)

private theorem storeFrom_spec {mc : Machine} (hm : mc.Ok) {b : FunctionBlock} (hb : b ∈ functionBlocks) {base : Nat} (tys : List RTy) :
    ∀ (i : Nat) (m : Mem) (vs : List Val), tys = (b.fields.map (·.2)).drop i → Typed tys vs →
      (∀ j f ty, b.fields[j]? = some (f, ty) → j < i → loadField mc b base (storeFrom mc b base m i tys vs) j ty = loadField mc b base m j ty) ∧
      (∀ j f ty v, b.fields[j]? = some (f, ty) → i ≤ j → vs[j - i]? = some v →
        loadField mc b base (storeFrom mc b base m i tys vs) j ty = .ok v) ∧
      (∀ a, ¬ (base ≤ a ∧ a < base + structSize (b.memory mc.platform)) → storeFrom mc b base m i tys vs a = m a) := by
  induction tys with
  | nil =>
    intro i m vs he ht
    cases ht
    exact ⟨fun _ _ _ _ _ => rfl, fun j f ty v _ _ h => by simp at h, fun _ _ => rfl⟩
  | cons ty tys ih =>
    intro i m vs he ht
    cases ht with
    | @cons _ v _ vs hv ht =>
      have hlt : i < (b.fields.map (·.2)).length := by
        rcases Nat.lt_or_ge i (b.fields.map (·.2)).length with h | h
        · exact h
        · rw [List.drop_eq_nil_of_le h] at he; cases he
      have hd := List.drop_eq_getElem_cons hlt
      rw [hd] at he
      obtain ⟨e1, e2⟩ := List.cons.inj he
      have hi : b.fields[i]? = some ((b.fields[i]'(by simpa using hlt)).1, ty) := by
        rw [List.getElem?_eq_getElem (by simpa using hlt), e1]
        simp
      obtain ⟨h1, h2, h3⟩ := ih (i + 1) (storeField mc b base m i ty v) vs e2 ht
      refine ⟨?_, ?_, ?_⟩
      · intro j f tj hj hlt
        show loadField mc b base (storeFrom mc b base (storeField mc b base m i ty v) (i + 1) tys vs) j tj = _
        rw [h1 j f tj hj (by omega), load_other hm hi hj (by omega) hv]
      · intro j f tj w hj hle hw
        show loadField mc b base (storeFrom mc b base (storeField mc b base m i ty v) (i + 1) tys vs) j tj = _
        by_cases hji : j = i
        · subst hji
          have : tj = ty := by rw [hi] at hj; simpa using (congrArg Prod.snd (Option.some.inj hj)).symm
          subst this
          rw [h1 j f tj hj (by omega)]
          have : v = w := by simpa using hw
          subst this
          exact load_stored hm hv
        · refine h2 j f tj w hj (by omega) ?_
          rw [show j - i = (j - (i + 1)) + 1 by omega, List.getElem?_cons_succ] at hw
          exact hw
      · intro a ha
        show storeFrom mc b base (storeField mc b base m i ty v) (i + 1) tys vs a = _
        rw [h3 a ha, store_out hm hb hi hv ha]

private theorem loadFrom_spec {mc : Machine} {b : FunctionBlock} {base : Nat} {m : Mem} (tys : List RTy) :
    ∀ (i : Nat) (vs : List Val), vs.length = tys.length → (∀ j ty v, tys[j]? = some ty → vs[j]? = some v →
      loadField mc b base m (i + j) ty = .ok v) → loadFrom mc b base m i tys = .ok vs := by
  induction tys with
  | nil => intro i vs hl _; cases vs <;> simp at hl; rfl
  | cons ty tys ih =>
    intro i vs hl h
    cases vs with
    | nil => simp at hl
    | cons v vs =>
      unfold loadFrom
      have h0 : loadField mc b base m i ty = .ok v := h 0 ty v rfl rfl
      rw [h0, ih (i + 1) vs (by simpa using hl) ?_]
      · rfl
      · intro j t w h1 h2
        rw [show i + 1 + j = i + (j + 1) by omega]
        exact h (j + 1) t w (by simpa using h1) (by simpa using h2)

private theorem holds_typed {mc : Machine} {x : Instance} {m : Mem} {vs : List Val} (h : Holds mc x m vs) :
    Typed (x.block.fields.map (·.2)) vs ∧ loadFrom mc x.block x.base m 0 (x.block.fields.map (·.2)) = .ok vs := by
  obtain ⟨hl, h⟩ := h
  constructor
  · refine typed_of_get _ _ (by simp [hl]) ?_
    intro j ty v h1 h2
    rw [List.getElem?_map] at h1
    cases hf : x.block.fields[j]? with
    | none => rw [hf] at h1; cases h1
    | some g =>
      rw [hf] at h1
      obtain ⟨w, e, hw, -⟩ := h j g.1 g.2 hf
      rw [h2] at e
      cases e
      simp only [Option.map_some, Option.some.injEq] at h1
      rw [← h1]
      exact hw
  · refine loadFrom_spec _ 0 vs (by simp [hl]) ?_
    intro j ty v h1 h2
    rw [List.getElem?_map] at h1
    cases hf : x.block.fields[j]? with
    | none => rw [hf] at h1; cases h1
    | some g =>
      rw [hf] at h1
      obtain ⟨w, e, -, hw⟩ := h j g.1 g.2 hf
      rw [h2] at e
      cases e
      simp only [Option.map_some, Option.some.injEq] at h1
      rw [← h1, Nat.zero_add]
      exact hw

/-! ### the code keeps values in their types -/

/-- The types of the fields the code works on. -/
private def Code.fields : Code → List RTy
  | .rtrig | .ftrig => [.bool, .bool, .signal]
  | .sr | .rs => [.bool, .bool, .bool]
  | .ctu t | .ctd t => [.bool, .bool, t, .bool, t, .signal]
  | .ctud t => [.bool, .bool, .bool, .bool, t, .bool, .bool, t, .signal, .signal]
  | .tp | .ton | .tof => [.bool, .i64, .bool, .i64, .signal, .optInstant]

private def Code.intOk : Code → Bool
  | .ctu t | .ctd t | .ctud t => t ∈ [RTy.i16, .i32, .u32, .i64, .u64]
  | _ => true

private theorem table_code : ∀ b ∈ functionBlocks, ∃ c, Code.of b.name = some c ∧ b.fields.map (·.2) = c.fields ∧ c.intOk = true := by
  have h : ∀ b ∈ functionBlocks, (match Code.of b.name with
      | some c => decide (b.fields.map (·.2) = c.fields) && c.intOk
      | none => false) = true := by decide +kernel
  intro b hb
  have := h b hb
  split at this
  · rename_i c hc
    simp only [Bool.and_eq_true, decide_eq_true_eq] at this
    exact ⟨c, hc, this.1, this.2⟩
  · cases this

private theorem of_int {t : RTy} (ht : t ∈ [RTy.i16, .i32, .u32, .i64, .u64]) {v : Val} :
    Val.Of t v ↔ ∃ x, v = .int x ∧ t.intTy.InRange x := by
  simp only [List.mem_cons, List.not_mem_nil, or_false] at ht
  rcases ht with rfl | rfl | rfl | rfl | rfl <;> cases v <;> simp [Val.Of]

private theorem of_bool {v : Val} : Val.Of .bool v ↔ ∃ b, v = .bool b := by cases v <;> simp [Val.Of]
private theorem of_signal {v : Val} : Val.Of .signal v ↔ ∃ b, v = .bool b := by cases v <;> simp [Val.Of]
private theorem of_instant {v : Val} : Val.Of .optInstant v ↔ ∃ t, v = .instant t ∧ ∀ r, t = some r → r < 2 ^ 64 := by
  cases v <;> simp [Val.Of]

private theorem bits_pos {t : RTy} : 0 < t.intTy.bits := by cases t <;> decide
private theorem zero_in {t : RTy} : t.intTy.InRange 0 := by cases t <;> decide

private theorem arith_in {t : IntTy} (h : 0 < t.bits) {p : Profile} {x y : Int} (e : t.arith p x = .ok y) : t.InRange y := by
  unfold IntTy.arith at e
  split at e
  · cases e; assumption
  · cases p
    · cases e
    · cases e; exact t.wrap_inRange h _

private theorem ite_cases {α : Type} {c : Prop} [Decidable c] {a b r : α} (h : (if c then a else b) = r) :
    (c ∧ a = r) ∨ (¬ c ∧ b = r) := by
  by_cases hc : c
  · rw [if_pos hc] at h; exact .inl ⟨hc, h⟩
  · rw [if_neg hc] at h; exact .inr ⟨hc, h⟩

private theorem ctu_in {t : IntTy} (h : 0 < t.bits) (h0 : t.InRange 0) {p : Profile} {s s' : CTUParams} (h1 : t.InRange s.pv)
    (h2 : t.InRange s.cv) (e : ctu t p s = .ok s') : t.InRange s'.pv ∧ t.InRange s'.cv := by
  unfold ctu at e
  rcases ite_cases e with ⟨-, e⟩ | ⟨-, e⟩
  · cases e; exact ⟨h1, h0⟩
  · simp only [CTUParams.r_edge] at e
    rcases ite_cases e with ⟨-, e⟩ | ⟨-, e⟩
    · simp only [CTUParams.inc] at e
      obtain ⟨u, hu, e⟩ := Res.bind_eq_ok.1 e
      obtain ⟨cv, hcv, hu⟩ := Res.bind_eq_ok.1 hu
      cases hu; cases e
      exact ⟨h1, arith_in h hcv⟩
    · cases e; exact ⟨h1, h2⟩

private theorem ctd_in {t : IntTy} (h : 0 < t.bits) {p : Profile} {s s' : CTDParams} (h1 : t.InRange s.pv)
    (h2 : t.InRange s.cv) (e : ctd t p s = .ok s') : t.InRange s'.pv ∧ t.InRange s'.cv := by
  unfold ctd at e
  rcases ite_cases e with ⟨-, e⟩ | ⟨-, e⟩
  · cases e; exact ⟨h1, h1⟩
  · simp only [CTDParams.r_edge] at e
    rcases ite_cases e with ⟨-, e⟩ | ⟨-, e⟩
    · simp only [CTDParams.dec] at e
      obtain ⟨u, hu, e⟩ := Res.bind_eq_ok.1 e
      obtain ⟨cv, hcv, hu⟩ := Res.bind_eq_ok.1 hu
      cases hu; cases e
      exact ⟨h1, arith_in h hcv⟩
    · cases e; exact ⟨h1, h2⟩

private theorem ctud_in {t : IntTy} (h : 0 < t.bits) (h0 : t.InRange 0) {p : Profile} {s s' : CTUDParams} (h1 : t.InRange s.pv)
    (h2 : t.InRange s.cv) (e : ctud t p s = .ok s') : t.InRange s'.pv ∧ t.InRange s'.cv := by
  unfold ctud at e
  rcases ite_cases e with ⟨-, e⟩ | ⟨-, e⟩
  · cases e; exact ⟨h1, h0⟩
  · rcases ite_cases e with ⟨-, e⟩ | ⟨-, e⟩
    · cases e; exact ⟨h1, h1⟩
    · simp only [CTUDParams.cu_r_edge, CTUDParams.cd_r_edge] at e
      rcases ite_cases e with ⟨-, e⟩ | ⟨-, e⟩
      · rcases ite_cases e with ⟨-, e⟩ | ⟨-, e⟩
        · simp only [CTUDParams.inc] at e
          obtain ⟨u, hu, e⟩ := Res.bind_eq_ok.1 e
          obtain ⟨cv, hcv, hu⟩ := Res.bind_eq_ok.1 hu
          cases hu; cases e
          exact ⟨h1, arith_in h hcv⟩
        · rcases ite_cases e with ⟨-, e⟩ | ⟨-, e⟩
          · simp only [CTUDParams.dec] at e
            obtain ⟨u, hu, e⟩ := Res.bind_eq_ok.1 e
            obtain ⟨cv, hcv, hu⟩ := Res.bind_eq_ok.1 hu
            cases hu; cases e
            exact ⟨h1, arith_in h hcv⟩
          · cases e; exact ⟨h1, h2⟩
      · cases e; exact ⟨h1, h2⟩

/-- The values of a timer are in their types. -/
private def TimerOk (s : TimerParams) : Prop :=
  IntTy.i64.InRange s.preset_time ∧ IntTy.i64.InRange s.elapsed_time ∧ ∀ r, s.start_time = some r → r < 2 ^ 64

private theorem ite_timer {c : Prop} [Decidable c] {a b : TimerParams} (ha : TimerOk a) (hb : TimerOk b) :
    TimerOk (if c then a else b) := by split <;> assumption

private theorem update_ok {s : TimerParams} (h : TimerOk s) (t : Nat) : TimerOk (s.update_elapsed_time t) := by
  unfold TimerParams.update_elapsed_time
  split
  · refine ⟨h.1, ?_, h.2.2⟩
    rename_i d _
    have h1 := h.1
    have h2 := IntTy.i64.wrap_inRange (by decide) d
    show IntTy.i64.InRange (min s.preset_time (IntTy.i64.wrap d))
    unfold IntTy.InRange at *
    omega
  · exact h

private theorem reset_ok {s : TimerParams} (h : TimerOk s) : TimerOk s.reset := ⟨h.1, zero_in (t := .i64), fun r hr => by cases hr⟩
private theorem start_ok {s : TimerParams} (h : TimerOk s) {t : Nat} (ht : t < 2 ^ 64) : TimerOk (s.start t) :=
  ⟨h.1, zero_in (t := .i64), fun r hr => by cases hr; exact ht⟩
private theorem finish_ok {s : TimerParams} (h : TimerOk s) (q : Bool) : TimerOk (s.finish q) := h

private theorem tp_in {s s' : TimerParams} {t1 t2 : Nat} (ht : t1 < 2 ^ 64) (h : TimerOk s) (e : TP s t1 t2 = .ok s') : TimerOk s' := by
  unfold TP at e
  rcases ite_cases e with ⟨-, e⟩ | ⟨-, e⟩
  · simp only [TimerParams.input_falling_edge] at e
    rcases ite_cases e with ⟨-, e⟩ | ⟨-, e⟩
    · cases e; exact finish_ok (update_ok h _) _
    · cases e
      refine finish_ok ?_ _
      refine ite_timer ?_ ?_
      · exact reset_ok (s := { TimerParams.update_elapsed_time s t1 with input_edge := _ }) (update_ok h t1)
      · exact update_ok h t1
  · simp only [TimerParams.input_rising_edge] at e
    rcases ite_cases e with ⟨-, e⟩ | ⟨-, e⟩
    · cases e; exact finish_ok (start_ok (s := { s with input_edge := _ }) h ht) _
    · cases e

private theorem ton_in {s s' : TimerParams} {t1 t2 : Nat} (ht : t1 < 2 ^ 64) (h : TimerOk s) (e : TON s t1 t2 = .ok s') : TimerOk s' := by
  unfold TON at e
  rcases ite_cases e with ⟨-, e⟩ | ⟨-, e⟩
  · rcases ite_cases e with ⟨-, e⟩ | ⟨-, e⟩
    · cases e; exact finish_ok (update_ok h _) _
    · simp only [TimerParams.input_rising_edge] at e
      rcases ite_cases e with ⟨-, e⟩ | ⟨-, e⟩
      · cases e; exact finish_ok (start_ok (s := { s with input_edge := _ }) h ht) _
      · cases e; exact finish_ok (s := { s with input_edge := _ }) h _
  · cases e; exact finish_ok (reset_ok h) _

private theorem tof_in {s s' : TimerParams} {t1 t2 : Nat} (ht : t1 < 2 ^ 64) (h : TimerOk s) (e : TOF s t1 t2 = .ok s') : TimerOk s' := by
  unfold TOF at e
  rcases ite_cases e with ⟨-, e⟩ | ⟨-, e⟩
  · simp only [TimerParams.input_rising_edge] at e
    cases e
    refine finish_ok ?_ _
    refine ite_timer ?_ ?_
    · exact reset_ok (s := { s with input_edge := _ }) h
    · exact h
  · simp only [TimerParams.input_falling_edge] at e
    rcases ite_cases e with ⟨-, e⟩ | ⟨-, e⟩
    · cases e; exact finish_ok (start_ok (s := { s with input_edge := _ }) h ht) _
    · rcases ite_cases e with ⟨-, e⟩ | ⟨-, e⟩
      · cases e; exact finish_ok (update_ok (s := { s with input_edge := (s.input_edge.falling_edge s.input).2 }) h _) _
      · cases e; exact finish_ok (s := { s with input_edge := _ }) h _

private theorem typed_cons {ty : RTy} {tys : List RTy} {vs : List Val} :
    Typed (ty :: tys) vs ↔ ∃ v ws, vs = v :: ws ∧ Val.Of ty v ∧ Typed tys ws := by
  unfold Typed
  constructor
  · intro h; cases h with | cons h1 h2 => exact ⟨_, _, rfl, h1, h2⟩
  · rintro ⟨v, ws, rfl, h1, h2⟩; exact .cons h1 h2

private theorem typed_nil {vs : List Val} : Typed [] vs ↔ vs = [] := by
  unfold Typed
  constructor
  · intro h; cases h; rfl
  · rintro rfl; exact .nil

private theorem timer_typed {s : TimerParams} (h : TimerOk s) : Typed Code.ton.fields (timerVals s) := by
  simp only [Code.fields, typed_cons, typed_nil, timerVals]
  exact ⟨_, _, rfl, trivial, _, _, rfl, h.1, _, _, rfl, trivial, _, _, rfl, h.2.1, _, _, rfl, trivial, _, _, rfl, h.2.2, rfl⟩

private theorem run_typed {p : Profile} {c : Code} (hc : c.intOk = true) {vs vs' : List Val} (ht : Typed c.fields vs) {t1 t2 : Nat}
    (h1 : t1 < 2 ^ 64) (e : c.run p vs t1 t2 = .ok vs') : Typed c.fields vs' := by
  cases c with
  | rtrig | ftrig | sr | rs =>
    simp only [Code.fields, typed_cons, typed_nil, of_bool, of_signal] at ht
    obtain ⟨_, _, rfl, ⟨a, rfl⟩, _, _, rfl, ⟨b, rfl⟩, _, _, rfl, ⟨d, rfl⟩, rfl⟩ := ht
    simp only [Code.run] at e
    cases e
    simp only [Code.fields, typed_cons, typed_nil, of_bool, of_signal, triggerVals, latchVals]
    exact ⟨_, _, rfl, ⟨_, rfl⟩, _, _, rfl, ⟨_, rfl⟩, _, _, rfl, ⟨_, rfl⟩, rfl⟩
  | ctu t | ctd t =>
    have hi : t ∈ [RTy.i16, .i32, .u32, .i64, .u64] := by simpa [Code.intOk] using hc
    simp only [Code.fields, typed_cons, typed_nil, of_bool, of_signal, of_int hi] at ht
    obtain ⟨_, _, rfl, ⟨a, rfl⟩, _, _, rfl, ⟨b, rfl⟩, _, _, rfl, ⟨x, rfl, hx⟩, _, _, rfl, ⟨d, rfl⟩, _, _, rfl, ⟨y, rfl, hy⟩, _, _, rfl,
      ⟨g, rfl⟩, rfl⟩ := ht
    simp only [Code.run] at e
    obtain ⟨s, hs, e⟩ := Res.bind_eq_ok.1 e
    cases e
    have hin := by first | exact ctu_in bits_pos zero_in hx hy hs | exact ctd_in bits_pos hx hy hs
    simp only [Code.fields, typed_cons, typed_nil, of_bool, of_signal, of_int hi, ctuVals, ctdVals]
    exact ⟨_, _, rfl, ⟨_, rfl⟩, _, _, rfl, ⟨_, rfl⟩, _, _, rfl, ⟨_, rfl, hin.1⟩, _, _, rfl, ⟨_, rfl⟩, _, _, rfl, ⟨_, rfl, hin.2⟩, _, _, rfl,
      ⟨_, rfl⟩, rfl⟩
  | ctud t =>
    have hi : t ∈ [RTy.i16, .i32, .u32, .i64, .u64] := by simpa [Code.intOk] using hc
    simp only [Code.fields, typed_cons, typed_nil, of_bool, of_signal, of_int hi] at ht
    obtain ⟨_, _, rfl, ⟨a, rfl⟩, _, _, rfl, ⟨b, rfl⟩, _, _, rfl, ⟨a2, rfl⟩, _, _, rfl, ⟨b2, rfl⟩, _, _, rfl, ⟨x, rfl, hx⟩, _, _, rfl,
      ⟨d, rfl⟩, _, _, rfl, ⟨d2, rfl⟩, _, _, rfl, ⟨y, rfl, hy⟩, _, _, rfl, ⟨g, rfl⟩, _, _, rfl, ⟨g2, rfl⟩, rfl⟩ := ht
    simp only [Code.run] at e
    obtain ⟨s, hs, e⟩ := Res.bind_eq_ok.1 e
    cases e
    have hin := ctud_in bits_pos zero_in hx hy hs
    simp only [Code.fields, typed_cons, typed_nil, of_bool, of_signal, of_int hi, ctudVals]
    exact ⟨_, _, rfl, ⟨_, rfl⟩, _, _, rfl, ⟨_, rfl⟩, _, _, rfl, ⟨_, rfl⟩, _, _, rfl, ⟨_, rfl⟩, _, _, rfl, ⟨_, rfl, hin.1⟩, _, _, rfl,
      ⟨_, rfl⟩, _, _, rfl, ⟨_, rfl⟩, _, _, rfl, ⟨_, rfl, hin.2⟩, _, _, rfl, ⟨_, rfl⟩, _, _, rfl, ⟨_, rfl⟩, rfl⟩
  | tp | ton | tof =>
    have hi : RTy.i64 ∈ [RTy.i16, .i32, .u32, .i64, .u64] := by decide
    simp only [Code.fields, typed_cons, typed_nil, of_bool, of_signal, of_int hi, of_instant] at ht
    obtain ⟨_, _, rfl, ⟨a, rfl⟩, _, _, rfl, ⟨x, rfl, hx⟩, _, _, rfl, ⟨b, rfl⟩, _, _, rfl, ⟨y, rfl, hy⟩, _, _, rfl, ⟨g, rfl⟩, _, _, rfl,
      ⟨st, rfl, hst⟩, rfl⟩ := ht
    simp only [Code.run] at e
    obtain ⟨s, hs, e⟩ := Res.bind_eq_ok.1 e
    cases e
    refine timer_typed ?_
    first
    | exact tp_in h1 (s := ⟨a, x, b, y, ⟨g⟩, st⟩) ⟨hx, hy, hst⟩ hs
    | exact ton_in h1 (s := ⟨a, x, b, y, ⟨g⟩, st⟩) ⟨hx, hy, hst⟩ hs
    | exact tof_in h1 (s := ⟨a, x, b, y, ⟨g⟩, st⟩) ⟨hx, hy, hst⟩ hs

/-! ### the Structured Text side -/

private theorem table_vars : ∀ b ∈ functionBlocks, ∀ (i : Nat) (k : Section) (n : String) (t : VTy), b.vars[i]? = some (k, n, t) → k ≠ .local →
    ∃ f e, t = .elem e ∧ b.fields[i]? = some (f, e.rep) ∧ e ∉ [STy.STRING, .WSTRING] := by
  have h : ∀ b ∈ functionBlocks, ((List.range b.vars.length).all fun i => match b.vars[i]? with
      | some (k, _, .elem e) => k == .local || (match b.fields[i]? with
        | some (_, r) => r == e.rep && e ∉ [STy.STRING, .WSTRING]
        | none => false)
      | some (k, _, .buffer _) => k == .local
      | none => true) = true := by decide +kernel
  intro b hb i k n t hv hk
  have hi : i < b.vars.length := by
    rcases Nat.lt_or_ge i b.vars.length with h | h
    · exact h
    · rw [List.getElem?_eq_none h] at hv; cases hv
  have := List.all_eq_true.1 (h b hb) i (List.mem_range.2 hi)
  rw [hv] at this
  cases t with
  | buffer _ => simp [hk] at this
  | elem e =>
    simp only [Bool.or_eq_true, beq_iff_eq, hk, false_or] at this
    split at this
    · rename_i f r hf
      simp only [Bool.and_eq_true, beq_iff_eq, decide_eq_true_eq] at this
      exact ⟨f, e, rfl, by rw [hf, this.1], this.2⟩
    · cases this

private theorem st_var {mc : Machine} (hm : mc.Ok) {b : FunctionBlock} (hb : b ∈ functionBlocks) {i : Nat} {k : Section} {n : String} {t : VTy}
    (hv : b.vars[i]? = some (k, n, t)) (hk : k ≠ .local) :
    ∃ f e, t = .elem e ∧ b.fields[i]? = some (f, e.rep) ∧ offset (b.memory mc.platform) i = offset (b.native mc.platform) i ∧
      ((VTy.elem e).slot mc.platform).size = (e.rep.slot mc.platform).size := by
  obtain ⟨f, e, rfl, hf, he⟩ := table_vars b hb i k n t hv hk
  obtain ⟨-, -, -, -, -, -, -, hr, -⟩ := (C101_function_blocks mc.platform hm.usual b hb).1 i k n _ hv hk
  have h1 : range (b.memory mc.platform) i = some (offset (b.memory mc.platform) i, ((VTy.elem e).slot mc.platform).size) := by
    refine range_eq ?_
    unfold FunctionBlock.memory
    rw [List.getElem?_map, hv]; rfl
  rw [h1, native_range hf] at hr
  simp only [Option.some.injEq, Prod.mk.injEq] at hr
  exact ⟨f, e, rfl, hf, hr.1, hr.2⟩

private theorem stRead_eq {mc : Machine} (hm : mc.Ok) {b : FunctionBlock} (hb : b ∈ functionBlocks) {i : Nat} {k : Section} {n : String}
    {t : VTy} (hv : b.vars[i]? = some (k, n, t)) (hk : k ≠ .local) :
    ∃ f r, b.fields[i]? = some (f, r) ∧ ∀ base m, stRead mc b base m i = loadField mc b base m i r := by
  obtain ⟨f, e, rfl, hf, ho, hs⟩ := st_var hm hb hv hk
  refine ⟨f, e.rep, hf, ?_⟩
  intro base m
  unfold stRead loadField
  rw [hv]
  simp only [ho, hs]

private theorem stWrite_eq {mc : Machine} (hm : mc.Ok) {b : FunctionBlock} (hb : b ∈ functionBlocks) {i : Nat} {k : Section} {n : String}
    {e : STy} (hv : b.vars[i]? = some (k, n, .elem e)) (hk : k ≠ .local) :
    ∃ f, b.fields[i]? = some (f, e.rep) ∧ ∀ base m v, stWrite mc b base m i v = .ok (storeField mc b base m i e.rep v) := by
  obtain ⟨f, e', h, hf, ho, hs⟩ := st_var hm hb hv hk
  cases h
  refine ⟨f, hf, ?_⟩
  intro base m v
  unfold stWrite storeField
  rw [hv]
  simp only [ho]

/-! ### one event -/

private theorem loadField_congr {mc : Machine} (hm : mc.Ok) {x : Instance} (hb : x.block ∈ functionBlocks) {m m' : Mem}
    (h : ∀ a, x.Has mc a → m a = m' a) {i : Nat} {f : String} {ty : RTy} (hi : x.block.fields[i]? = some (f, ty)) :
    loadField mc x.block x.base m i ty = loadField mc x.block x.base m' i ty := by
  unfold loadField
  have := field_inside hm hb hi
  congr 1
  refine read_congr fun a h1 h2 => h a ⟨by omega, ?_⟩
  unfold Instance.size
  omega

private theorem holds_congr {mc : Machine} (hm : mc.Ok) {x : Instance} (hb : x.block ∈ functionBlocks) {m m' : Mem} {vs : List Val}
    (h : ∀ a, x.Has mc a → m a = m' a) (hh : Holds mc x m vs) : Holds mc x m' vs := by
  refine ⟨hh.1, ?_⟩
  intro i f ty hi
  obtain ⟨v, h1, h2, h3⟩ := hh.2 i f ty hi
  exact ⟨v, h1, h2, by rw [← loadField_congr hm hb h hi]; exact h3⟩

private theorem assign_holds {mc : Machine} (hm : mc.Ok) {x : Instance} (hb : x.block ∈ functionBlocks) {m : Mem} {vs : List Val}
    (hh : Holds mc x m vs) {i : Nat} {n : String} {t : STy} {v : Val} (hv : x.block.vars[i]? = some (.input, n, .elem t))
    (ho : Val.Of t.rep v) :
    ∃ m', stWrite mc x.block x.base m i v = .ok m' ∧ Holds mc x m' (vs.set i v) ∧ ∀ a, ¬ x.Has mc a → m' a = m a := by
  obtain ⟨f, hf, hw⟩ := stWrite_eq hm hb hv (by decide)
  refine ⟨_, hw _ _ _, ⟨by simpa using hh.1, ?_⟩, ?_⟩
  · intro j g ty hj
    obtain ⟨w, h1, h2, h3⟩ := hh.2 j g ty hj
    by_cases hij : i = j
    · subst hij
      rw [hf] at hj
      obtain ⟨-, rfl⟩ := Prod.mk.inj (Option.some.inj hj)
      refine ⟨v, ?_, ho, load_stored hm ho⟩
      have hlt : i < vs.length := by
        rcases Nat.lt_or_ge i vs.length with h | h
        · exact h
        · rw [List.getElem?_eq_none h] at h1; cases h1
      rw [List.getElem?_set_self hlt]
    · exact ⟨w, by rw [List.getElem?_set_ne hij]; exact h1, h2, by rw [load_other hm hf hj hij ho]; exact h3⟩
  · intro a ha
    exact store_out hm hb hf ho ha

private theorem call_holds {mc : Machine} (hm : mc.Ok) {p : Profile} {x : Instance} (hb : x.block ∈ functionBlocks) {m : Mem} {vs : List Val}
    (hh : Holds mc x m vs) {t1 t2 : Nat} (ht : t1 < 2 ^ 64) :
    (∀ vs', (Event.call t1 t2).alone p x.block vs = .ok vs' → ∃ m', callNative mc p x.block x.base t1 t2 m = .ok m' ∧ Holds mc x m' vs' ∧
      ∀ a, ¬ x.Has mc a → m' a = m a) ∧
    ∀ m', callNative mc p x.block x.base t1 t2 m = .ok m' → ∃ vs', (Event.call t1 t2).alone p x.block vs = .ok vs' := by
  obtain ⟨c, hc, hf, hi⟩ := table_code x.block hb
  obtain ⟨hty, hld⟩ := holds_typed hh
  have hrun : callNative mc p x.block x.base t1 t2 m = (do
      let vs' ← c.run p vs t1 t2
      pure (storeFrom mc x.block x.base m 0 (x.block.fields.map (·.2)) vs')) := by
    unfold callNative
    rw [hc]
    simp only [hld, Res.bind_ok]
  have hal : (Event.call t1 t2).alone p x.block vs = c.run p vs t1 t2 := by
    simp only [Event.alone, hc]
  rw [hrun, hal]
  constructor
  · intro vs' e
    rw [e]
    refine ⟨_, rfl, ?_⟩
    rw [hf] at hty
    have hty' := run_typed hi hty ht e
    rw [← hf] at hty'
    obtain ⟨-, h2, h3⟩ := storeFrom_spec hm hb (base := x.base) _ 0 m vs' (by simp) hty'
    obtain ⟨hl, hg⟩ := typed_get hty'
    refine ⟨⟨by simpa using hl, ?_⟩, ?_⟩
    · intro i f ty hi
      obtain ⟨v, hv, ho⟩ := hg i ty (by rw [List.getElem?_map, hi]; rfl)
      exact ⟨v, hv, ho, h2 i f ty v hi (Nat.zero_le _) (by simpa using hv)⟩
    · intro a ha; exact h3 a ha
  · intro m' e
    obtain ⟨vs', e, -⟩ := Res.bind_eq_ok.1 e
    exact ⟨vs', e⟩

private theorem event_holds {mc : Machine} (hm : mc.Ok) {p : Profile} {xs : List Instance} {x : Instance} {k : Nat} (hk : xs[k]? = some x)
    (hb : x.block ∈ functionBlocks) {m : Mem} {vs : List Val} (hh : Holds mc x m vs) {e : Event} (he : (Step.on k e).Proper mc xs) :
    (∀ vs', e.alone p x.block vs = .ok vs' → ∃ m', e.exec mc p x m = .ok m' ∧ Holds mc x m' vs' ∧ ∀ a, ¬ x.Has mc a → m' a = m a) ∧
    ∀ m', e.exec mc p x m = .ok m' → ∃ vs', e.alone p x.block vs = .ok vs' := by
  cases e with
  | assign i v =>
    obtain ⟨n, t, hv, ho⟩ := he x hk
    obtain ⟨m', h1, h2, h3⟩ := assign_holds hm hb hh hv ho
    refine ⟨?_, fun _ _ => ⟨_, rfl⟩⟩
    intro vs' e
    cases e
    exact ⟨m', h1, h2, h3⟩
  | call t1 t2 => exact call_holds hm hb hh he.1

/-! ### programs -/

private theorem step_holds {mc : Machine} (hm : mc.Ok) {p : Profile} {xs : List Instance} (hx : Separate mc xs) {m : Mem}
    {now : Nat → List Val} (h0 : ∀ k x, xs[k]? = some x → Holds mc x m (now k)) {s : Step} (hs : s.Proper mc xs) :
    (∀ next : Nat → List Val, (∀ k x, xs[k]? = some x → alone p x.block (now k) (eventsOf k [s]) = .ok (next k)) →
      ∃ m', s.exec mc p xs m = .ok m' ∧ ∀ k x, xs[k]? = some x → Holds mc x m' (next k)) ∧
    ∀ m', s.exec mc p xs m = .ok m' → ∀ k x, xs[k]? = some x → ∃ vs, alone p x.block (now k) (eventsOf k [s]) = .ok vs := by
  have mem : ∀ {k : Nat} {x : Instance}, xs[k]? = some x → x ∈ xs := fun h => List.mem_of_getElem? h
  cases s with
  | other f =>
    constructor
    · intro next hn
      refine ⟨_, rfl, ?_⟩
      intro k x hk
      have := hn k x hk
      simp only [eventsOf, List.filterMap_cons, List.filterMap_nil, alone, List.foldlM_nil, Res.pure_eq, Res.ok.injEq] at this
      rw [← this]
      exact holds_congr hm (hx.1 x (mem hk)) (fun a ha => (hs m x a (mem hk) ha).symm) (h0 k x hk)
    · intro m' _ k x _
      exact ⟨now k, by simp [eventsOf, alone]⟩
  | on j e =>
    have hself : ∀ (x : Instance), alone p x.block (now j) (eventsOf j [.on j e]) = e.alone p x.block (now j) := by
      intro x
      simp only [eventsOf, List.filterMap_cons, if_true, List.filterMap_nil, alone, List.foldlM_cons, List.foldlM_nil, Res.pure_eq]
      cases e.alone p x.block (now j) <;> rfl
    have hother : ∀ k, k ≠ j → ∀ x : Instance, alone p x.block (now k) (eventsOf k [.on j e]) = .ok (now k) := by
      intro k hk x
      simp [eventsOf, alone, Ne.symm hk]
    cases hj : xs[j]? with
    | none =>
      constructor
      · intro next hn
        refine ⟨m, by simp only [Step.exec, hj], ?_⟩
        intro k x hk
        have hne : k ≠ j := by rintro rfl; rw [hj] at hk; cases hk
        have := hn k x hk
        rw [hother k hne x] at this
        rw [← Res.ok.inj this]
        exact h0 k x hk
      · intro m' _ k x hk
        have hne : k ≠ j := by rintro rfl; rw [hj] at hk; cases hk
        exact ⟨_, hother k hne x⟩
    | some y =>
      obtain ⟨g1, g2⟩ := event_holds hm (p := p) hj (hx.1 y (mem hj)) (h0 j y hj) hs
      constructor
      · intro next hn
        have e1 := hn j y hj
        rw [hself y] at e1
        obtain ⟨m', h1, h2, h3⟩ := g1 _ e1
        refine ⟨m', by simp only [Step.exec, hj]; exact h1, ?_⟩
        intro k x hk
        by_cases hne : k = j
        · subst hne
          rw [hj] at hk
          cases hk
          exact h2
        · have := hn k x hk
          rw [hother k hne x] at this
          rw [← Res.ok.inj this]
          refine holds_congr hm (hx.1 x (mem hk)) ?_ (h0 k x hk)
          intro a ha
          exact (h3 a fun hy => hx.2 k j x y hne hk hj a ⟨ha, hy⟩).symm
      · intro m' e k x hk
        by_cases hne : k = j
        · subst hne
          rw [hj] at hk
          cases hk
          rw [hself]
          refine g2 m' ?_
          simpa only [Step.exec, hj] using e
        · exact ⟨_, hother k hne x⟩

theorem alone_append (p : Profile) (b : FunctionBlock) (vs : List Val) (a c : List Event) :
    alone p b vs (a ++ c) = (do let ws ← alone p b vs a; alone p b ws c) := by
  unfold alone
  rw [List.foldlM_append]

private theorem program_holds {mc : Machine} (hm : mc.Ok) {p : Profile} {xs : List Instance} (hx : Separate mc xs) (steps : List Step) :
    ∀ (m : Mem) (now : Nat → List Val), (∀ k x, xs[k]? = some x → Holds mc x m (now k)) → (∀ s ∈ steps, s.Proper mc xs) →
    (∀ next : Nat → List Val, (∀ k x, xs[k]? = some x → alone p x.block (now k) (eventsOf k steps) = .ok (next k)) →
      ∃ m', exec mc p xs m steps = .ok m' ∧ ∀ k x, xs[k]? = some x → Holds mc x m' (next k)) ∧
    ∀ m', exec mc p xs m steps = .ok m' → ∀ k x, xs[k]? = some x → ∃ vs, alone p x.block (now k) (eventsOf k steps) = .ok vs := by
  induction steps with
  | nil =>
    intro m now h0 _
    constructor
    · intro next hn
      refine ⟨m, rfl, ?_⟩
      intro k x hk
      have := hn k x hk
      simp only [eventsOf, List.filterMap_nil, alone, List.foldlM_nil, Res.pure_eq, Res.ok.injEq] at this
      rw [← this]
      exact h0 k x hk
    · intro m' _ k x _
      exact ⟨now k, rfl⟩
  | cons s steps ih =>
    intro m now h0 hs
    have hev : ∀ k, eventsOf k (s :: steps) = eventsOf k [s] ++ eventsOf k steps := by
      intro k
      unfold eventsOf
      rw [← List.filterMap_append]; rfl
    obtain ⟨g1, g2⟩ := step_holds hm (p := p) hx h0 (hs s List.mem_cons_self)
    have hs' : ∀ s ∈ steps, s.Proper mc xs := fun t ht => hs t (List.mem_cons_of_mem _ ht)
    constructor
    · intro next hn
      -- the states after the first step
      have hmid : ∀ k, ∃ ws, ∀ x, xs[k]? = some x → alone p x.block (now k) (eventsOf k [s]) = .ok ws ∧
          alone p x.block ws (eventsOf k steps) = .ok (next k) := by
        intro k
        cases hk : xs[k]? with
        | none => exact ⟨[], fun x h => by cases h⟩
        | some x =>
          have := hn k x hk
          rw [hev, alone_append] at this
          obtain ⟨ws, h1, h2⟩ := Res.bind_eq_ok.1 this
          exact ⟨ws, fun y hy => by cases hy; exact ⟨h1, h2⟩⟩
      obtain ⟨mid, hmid⟩ := Classical.axiomOfChoice hmid
      obtain ⟨m1, e1, h1⟩ := g1 mid fun k x hk => (hmid k x hk).1
      obtain ⟨m2, e2, h2⟩ := (ih m1 mid h1 hs').1 next fun k x hk => (hmid k x hk).2
      refine ⟨m2, ?_, h2⟩
      show (s :: steps).foldlM (Step.exec mc p xs) m = _
      rw [List.foldlM_cons, e1]
      exact e2
    · intro m' e
      have e : (s :: steps).foldlM (Step.exec mc p xs) m = .ok m' := e
      rw [List.foldlM_cons] at e
      obtain ⟨m1, e1, e2⟩ := Res.bind_eq_ok.1 e
      have hmid : ∀ k, ∃ ws, ∀ x, xs[k]? = some x → alone p x.block (now k) (eventsOf k [s]) = .ok ws := by
        intro k
        cases hk : xs[k]? with
        | none => exact ⟨[], fun x h => by cases h⟩
        | some x =>
          obtain ⟨ws, h⟩ := g2 m1 e1 k x hk
          exact ⟨ws, fun y hy => by cases hy; exact h⟩
      obtain ⟨mid, hmid⟩ := Classical.axiomOfChoice hmid
      obtain ⟨m1', e1', h1⟩ := g1 mid hmid
      rw [e1] at e1'
      cases e1'
      intro k x hk
      obtain ⟨vs, h⟩ := (ih m1 mid h1 hs').2 m' e2 k x hk
      exact ⟨vs, by rw [hev, alone_append, hmid k x hk]; exact h⟩

/-- **C145**: a program with any number of instances at separate addresses, whose steps — writing inputs, calling instances,
anything else that leaves the instances alone — come in any order. It runs to its end if and only if every instance alone does,
and then every input and output of every instance, as the Structured Text side reads it, is what it would be if that instance
were the only one. -/
theorem C145_independent (mc : Machine) (hm : mc.Ok) (p : Profile) (xs : List Instance) (hx : Separate mc xs) (m : Mem)
    (now : Nat → List Val) (h0 : ∀ k x, xs[k]? = some x → Holds mc x m (now k)) (steps : List Step)
    (hs : ∀ s ∈ steps, s.Proper mc xs) :
    ((∃ m', exec mc p xs m steps = .ok m') ↔
      ∀ k x, xs[k]? = some x → ∃ vs, alone p x.block (now k) (eventsOf k steps) = .ok vs) ∧
    ∀ m', exec mc p xs m steps = .ok m' → ∀ k x vs, xs[k]? = some x → alone p x.block (now k) (eventsOf k steps) = .ok vs →
      ∀ i sec n t, x.block.vars[i]? = some (sec, n, t) → sec ≠ .local →
        ∃ v, vs[i]? = some v ∧ stRead mc x.block x.base m' i = .ok v := by
  obtain ⟨g1, g2⟩ := program_holds hm (p := p) hx steps m now h0 hs
  have choose : (∀ k x, xs[k]? = some x → ∃ vs, alone p x.block (now k) (eventsOf k steps) = .ok vs) →
      ∃ next : Nat → List Val, ∀ k x, xs[k]? = some x → alone p x.block (now k) (eventsOf k steps) = .ok (next k) := by
    intro h
    have hmid : ∀ k, ∃ ws, ∀ x, xs[k]? = some x → alone p x.block (now k) (eventsOf k steps) = .ok ws := by
      intro k
      cases hk : xs[k]? with
      | none => exact ⟨[], fun x h => by cases h⟩
      | some x =>
        obtain ⟨ws, h⟩ := h k x hk
        exact ⟨ws, fun y hy => by cases hy; exact h⟩
    exact Classical.axiomOfChoice hmid
  refine ⟨⟨fun ⟨m', e⟩ => g2 m' e, fun h => ?_⟩, ?_⟩
  · obtain ⟨next, hn⟩ := choose h
    obtain ⟨m', e, -⟩ := g1 next hn
    exact ⟨m', e⟩
  · intro m' e k x vs hk hal i sec n t hv hsec
    obtain ⟨next, hn⟩ := choose (g2 m' e)
    obtain ⟨m2, e2, hh⟩ := g1 next hn
    rw [e] at e2
    cases e2
    have : next k = vs := by
      have := hn k x hk
      rw [hal] at this
      cases this; rfl
    subst this
    have hb := hx.1 x (List.mem_of_getElem? hk)
    obtain ⟨f, r, hf, hr⟩ := stRead_eq hm hb hv hsec
    obtain ⟨v, h1, -, h3⟩ := (hh k x hk).2 i f r hf
    exact ⟨v, h1, by rw [hr]; exact h3⟩

/-- **C145**, outside: what a program does with its instances changes no byte outside of them. -/
theorem C145_outside (mc : Machine) (hm : mc.Ok) (p : Profile) (xs : List Instance) (hx : Separate mc xs) (steps : List Step) :
    ∀ (m m' : Mem) (now : Nat → List Val), (∀ k x, xs[k]? = some x → Holds mc x m (now k)) → (∀ s ∈ steps, s.Proper mc xs) →
      (∀ s ∈ steps, ∃ k e, s = .on k e) → exec mc p xs m steps = .ok m' → ∀ a, (∀ x ∈ xs, ¬ x.Has mc a) → m' a = m a := by
  induction steps with
  | nil =>
    intro m m' now _ _ _ e a _
    cases e; rfl
  | cons s steps ih =>
    intro m m' now h0 hs hon e a ha
    have e : (s :: steps).foldlM (Step.exec mc p xs) m = .ok m' := e
    rw [List.foldlM_cons] at e
    obtain ⟨m1, e1, e2⟩ := Res.bind_eq_ok.1 e
    obtain ⟨g1, g2⟩ := step_holds hm (p := p) hx h0 (hs s List.mem_cons_self)
    have hmid : ∀ k, ∃ ws, ∀ x, xs[k]? = some x → alone p x.block (now k) (eventsOf k [s]) = .ok ws := by
      intro k
      cases hk : xs[k]? with
      | none => exact ⟨[], fun x h => by cases h⟩
      | some x =>
        obtain ⟨ws, h⟩ := g2 m1 e1 k x hk
        exact ⟨ws, fun y hy => by cases hy; exact h⟩
    obtain ⟨mid, hmid⟩ := Classical.axiomOfChoice hmid
    obtain ⟨m1', e1', h1⟩ := g1 mid hmid
    rw [e1] at e1'
    cases e1'
    rw [ih m1 m' mid h1 (fun t ht => hs t (List.mem_cons_of_mem _ ht)) (fun t ht => hon t (List.mem_cons_of_mem _ ht)) e2 a ha]
    obtain ⟨k, e, rfl⟩ := hon s List.mem_cons_self
    cases hk : xs[k]? with
    | none =>
      simp only [Step.exec, hk] at e1
      cases e1; rfl
    | some x =>
      simp only [Step.exec, hk] at e1
      obtain ⟨f1, f2⟩ := event_holds hm (p := p) hk (hx.1 x (List.mem_of_getElem? hk)) (h0 k x hk) (hs _ List.mem_cons_self)
      obtain ⟨vs', h⟩ := f2 m1 e1
      obtain ⟨m2, e3, -, h3⟩ := f1 vs' h
      rw [e1] at e3
      cases e3
      exact h3 a (ha x (List.mem_of_getElem? hk))

/-- **C145**, copies: an instance whose bytes are copied to another place (`b := a;`, or saved and restored) holds the same
values there. -/
theorem C145_copy (mc : Machine) (hm : mc.Ok) (x : Instance) (hb : x.block ∈ functionBlocks) (m m' : Mem) (vs : List Val) (base : Nat)
    (hh : Holds mc x m vs) (hc : ∀ i, i < x.size mc → m' (base + i) = m (x.base + i)) : Holds mc ⟨x.block, base⟩ m' vs := by
  refine ⟨hh.1, ?_⟩
  intro i f ty hi
  obtain ⟨v, h1, h2, h3⟩ := hh.2 i f ty hi
  refine ⟨v, h1, h2, ?_⟩
  rw [← h3]
  unfold loadField
  have := field_inside hm hb hi
  congr 1
  apply List.ext_getElem?
  intro j
  rw [readBytes_get, readBytes_get]
  split
  · rename_i hj
    have := hc (offset (x.block.native mc.platform) i + j) (by unfold Instance.size; omega)
    rw [show base + offset (x.block.native mc.platform) i + j = base + (offset (x.block.native mc.platform) i + j) by omega,
      show x.base + offset (x.block.native mc.platform) i + j = x.base + (offset (x.block.native mc.platform) i + j) by omega, this]
  · rfl

/-! ### the instance alone is the one the other properties are about -/

theorem flat_run {S I : Type} (p : Profile) (b : FunctionBlock) (vals : S → List Val) (call : S → I → Res S) (cycle : I → List Event)
    (h : ∀ s i, alone p b (vals s) (cycle i) = (do let s' ← call s i; pure (vals s'))) (l : List I) :
    ∀ s, alone p b (vals s) (l.flatMap cycle) = (do let s' ← runFB call s l; pure (vals s')) := by
  induction l with
  | nil => intro s; rfl
  | cons i l ih =>
    intro s
    rw [List.flatMap_cons, alone_append, h]
    simp only [runFB, List.foldlM_cons]
    cases call s i with
    | ok s' => simpa [runFB] using ih s'
    | panic => rfl
    | ub => rfl

/-- **C145**, the instance alone: writing all inputs and calling, again and again, is the history of calls that C01 to C17 and
the other properties of function blocks are about. -/
theorem C145_alone (p : Profile) (b : FunctionBlock) :
    (Code.of b.name = some .rtrig → ∀ s h, alone p b (triggerVals s) (h.flatMap fun clk => [.assign 0 (.bool clk), .call 0 0]) =
      (do let s' ← runFB R_TRIG.call s h; pure (triggerVals s'))) ∧
    (Code.of b.name = some .ftrig → ∀ s h, alone p b (triggerVals s) (h.flatMap fun clk => [.assign 0 (.bool clk), .call 0 0]) =
      (do let s' ← runFB F_TRIG.call s h; pure (triggerVals s'))) ∧
    (Code.of b.name = some .sr → ∀ s h, alone p b (latchVals s)
        (h.flatMap fun i => [.assign 0 (.bool i.set), .assign 1 (.bool i.reset), .call 0 0]) =
      (do let s' ← runFB SR.call s h; pure (latchVals s'))) ∧
    (Code.of b.name = some .rs → ∀ s h, alone p b (latchVals s)
        (h.flatMap fun i => [.assign 0 (.bool i.set), .assign 1 (.bool i.reset), .call 0 0]) =
      (do let s' ← runFB RS.call s h; pure (latchVals s'))) ∧
    (∀ t, Code.of b.name = some (.ctu t) → ∀ s h, alone p b (ctuVals s)
        (h.flatMap fun i => [.assign 0 (.bool i.cu), .assign 1 (.bool i.r), .assign 2 (.int i.pv), .call 0 0]) =
      (do let s' ← runFB (ctuCall t.intTy p) s h; pure (ctuVals s'))) ∧
    (∀ t, Code.of b.name = some (.ctd t) → ∀ s h, alone p b (ctdVals s)
        (h.flatMap fun i => [.assign 0 (.bool i.cd), .assign 1 (.bool i.ld), .assign 2 (.int i.pv), .call 0 0]) =
      (do let s' ← runFB (ctdCall t.intTy p) s h; pure (ctdVals s'))) ∧
    (∀ t, Code.of b.name = some (.ctud t) → ∀ s h, alone p b (ctudVals s)
        (h.flatMap fun i => [.assign 0 (.bool i.cu), .assign 1 (.bool i.cd), .assign 2 (.bool i.r), .assign 3 (.bool i.ld),
          .assign 4 (.int i.pv), .call 0 0]) =
      (do let s' ← runFB (ctudCall t.intTy p) s h; pure (ctudVals s'))) ∧
    (Code.of b.name = some .tp → ∀ s h, alone p b (timerVals s)
        (h.flatMap fun i => [.assign 0 (.bool i.input), .assign 1 (.int i.pt), .call i.t1 i.t2]) =
      (do let s' ← runFB TP.call s h; pure (timerVals s'))) ∧
    (Code.of b.name = some .ton → ∀ s h, alone p b (timerVals s)
        (h.flatMap fun i => [.assign 0 (.bool i.input), .assign 1 (.int i.pt), .call i.t1 i.t2]) =
      (do let s' ← runFB TON.call s h; pure (timerVals s'))) ∧
    (Code.of b.name = some .tof → ∀ s h, alone p b (timerVals s)
        (h.flatMap fun i => [.assign 0 (.bool i.input), .assign 1 (.int i.pt), .call i.t1 i.t2]) =
      (do let s' ← runFB TOF.call s h; pure (timerVals s'))) := by
  refine ⟨fun hc s h => flat_run p b _ _ _ (fun s i => ?_) h s, fun hc s h => flat_run p b _ _ _ (fun s i => ?_) h s,
    fun hc s h => flat_run p b _ _ _ (fun s i => ?_) h s, fun hc s h => flat_run p b _ _ _ (fun s i => ?_) h s,
    fun t hc s h => flat_run p b _ _ _ (fun s i => ?_) h s, fun t hc s h => flat_run p b _ _ _ (fun s i => ?_) h s,
    fun t hc s h => flat_run p b _ _ _ (fun s i => ?_) h s, fun hc s h => flat_run p b _ _ _ (fun s i => ?_) h s,
    fun hc s h => flat_run p b _ _ _ (fun s i => ?_) h s, fun hc s h => flat_run p b _ _ _ (fun s i => ?_) h s⟩ <;>
  simp only [alone, List.foldlM_cons, List.foldlM_nil, Event.alone, hc, Res.bind_ok, bind_pure, List.set, triggerVals, latchVals, ctuVals,
    ctdVals, ctudVals, timerVals] <;> rfl

/-- A zero-initialised instance holds the values of a new one. Of a timer this is true if the toolchain reads zero bytes as "not
started" (C100). -/
theorem C145_zeroed (mc : Machine) (hm : mc.Ok) (x : Instance) (hb : x.block ∈ functionBlocks) (m : Mem)
    (hz : ∀ a, x.Has mc a → m a = 0) (hi : mc.instantOf (List.replicate mc.platform.instantSize 0) = .ok none) :
    Holds mc x m (x.block.fields.map (·.2.zero)) := by
  have hnf : ∀ b ∈ functionBlocks, ∀ f ∈ b.fields, f.2 ≠ .f32 ∧ f.2 ≠ .f64 := by decide +kernel
  refine ⟨by simp, ?_⟩
  intro i f ty hf
  have hread : readBytes m (x.base + offset (x.block.native mc.platform) i) (ty.slot mc.platform).size =
      List.replicate (ty.slot mc.platform).size 0 := by
    apply List.ext_getElem?
    intro j
    have hin := field_inside hm hb hf
    rw [readBytes_get, List.getElem?_replicate]
    split
    · rw [hz _ ⟨by omega, by unfold Instance.size; omega⟩]
    · rfl
  obtain ⟨h1, h2⟩ := hnf _ hb (f, ty) (List.mem_of_getElem? hf)
  refine ⟨_, by rw [List.getElem?_map, hf]; rfl, ?_⟩
  unfold loadField
  rw [hread]
  by_cases hinst : ty = .optInstant
  · subst hinst
    refine ⟨fun r h => (by cases h), ?_⟩
    show (do let t ← mc.instantOf (List.replicate mc.platform.instantSize 0); pure (Val.instant t)) = _
    rw [hi]; rfl
  cases ty <;> simp only [ne_eq, not_true_eq_false] at h1 h2 hinst <;> simp only [RTy.slot] <;>
    first
    | exact ⟨trivial, rfl⟩
    | exact ⟨zero_in (t := .i8), by cases hh : mc.host <;> simp only [RTy.load, hh] <;> rfl⟩
    | exact ⟨zero_in (t := .u8), by cases hh : mc.host <;> simp only [RTy.load, hh] <;> rfl⟩
    | exact ⟨zero_in (t := .i16), by cases hh : mc.host <;> simp only [RTy.load, hh] <;> rfl⟩
    | exact ⟨zero_in (t := .u16), by cases hh : mc.host <;> simp only [RTy.load, hh] <;> rfl⟩
    | exact ⟨zero_in (t := .i32), by cases hh : mc.host <;> simp only [RTy.load, hh] <;> rfl⟩
    | exact ⟨zero_in (t := .u32), by cases hh : mc.host <;> simp only [RTy.load, hh] <;> rfl⟩
    | exact ⟨zero_in (t := .i64), by cases hh : mc.host <;> simp only [RTy.load, hh] <;> rfl⟩
    | exact ⟨zero_in (t := .u64), by cases hh : mc.host <;> simp only [RTy.load, hh] <;> rfl⟩

/-! ### a program -/

/-- A machine: 64-bit Linux, bytes from the lowest on, 16 bytes for an `Option<Instant>`: 0, or one more than the reading. -/
def pc : Machine :=
  { platform := ⟨8, 16, 8⟩, host := .little,
    instantBytes := fun t => match t with | none => List.replicate 16 0 | some r => toLeBytes 16 (r + 1),
    instantOf := fun bs => .ok (if fromLeBytes bs = 0 then none else some (fromLeBytes bs - 1)) }

theorem pc_ok : pc.Ok where
  usual := ⟨by decide, by decide, by decide, by decide⟩
  size := by
    rintro (_ | r) _
    · rfl
    · exact le_length 16 _
  back := by
    rintro (_ | r) h
    · rfl
    · have hr : r < 2 ^ 64 := h r rfl
      have hb : fromLeBytes (toLeBytes 16 (r + 1)) = r + 1 := le_back 16 _ (by omega)
      simp only [pc, hb, Nat.add_sub_cancel]
      rfl

/-- The blocks of the table by name. -/
def named (n : String) : FunctionBlock := (functionBlocks.filter (·.name = n)).headD ⟨"", [], []⟩

/-- A counter at 100 and a timer at 112, one behind the other. -/
def two : List Instance := [⟨named "CTU", 100⟩, ⟨named "TON", 112⟩]

/-- Two instances next to each other in zeroed memory, and a program that uses them alternately, meet the hypotheses. -/
theorem two_ok : Separate pc two ∧ (∀ (k : Nat) x, two[k]? = some x → ∃ vs, Holds pc x (fun _ => 0) vs) ∧
    ∀ s ∈ [Step.on 0 (.assign 0 (.bool true)), .on 1 (.assign 0 (.bool true)), .on 1 (.assign 1 (.int 5)), .on 1 (.call 10 10),
      .on 0 (.assign 2 (.int 1)), .on 0 (.call 0 0), .on 1 (.call 20 21)], s.Proper pc two := by
  have hs0 : Instance.size pc ⟨named "CTU", 100⟩ = 10 := by decide +kernel
  have hs1 : Instance.size pc ⟨named "TON", 112⟩ = 64 := by decide +kernel
  have hb0 : named "CTU" ∈ functionBlocks := by
    have : named "CTU" = functionBlocks[2] := by rfl
    rw [this]; exact List.getElem_mem _
  have hb1 : named "TON" ∈ functionBlocks := by
    have : named "TON" = functionBlocks[25] := by rfl
    rw [this]; exact List.getElem_mem _
  refine ⟨⟨?_, ?_⟩, ?_, ?_⟩
  · intro x hx
    simp only [two, List.mem_cons, List.not_mem_nil, or_false] at hx
    rcases hx with rfl | rfl
    · exact hb0
    · exact hb1
  · intro j k x y hjk hx hy a
    rcases j with _ | _ | j <;> rcases k with _ | _ | k <;> simp [two] at hx hy hjk <;> subst hx <;> subst hy <;>
      simp only [Instance.Has, hs0, hs1] <;> omega
  · intro k x hk
    rcases k with _ | _ | k <;> simp [two] at hk <;> subst hk
    · exact ⟨_, C145_zeroed pc pc_ok _ hb0 _ (fun _ _ => rfl) rfl⟩
    · exact ⟨_, C145_zeroed pc pc_ok _ hb1 _ (fun _ _ => rfl) rfl⟩
  · intro s hs
    simp only [List.mem_cons, List.not_mem_nil, or_false] at hs
    have h0 : two[0]? = some ⟨named "CTU", 100⟩ := rfl
    have h1 : two[1]? = some ⟨named "TON", 112⟩ := rfl
    rcases hs with rfl | rfl | rfl | rfl | rfl | rfl | rfl
    · intro x hx; rw [h0] at hx; cases hx; exact ⟨"CU", .BOOL, rfl, trivial⟩
    · intro x hx; rw [h1] at hx; cases hx; exact ⟨"IN", .BOOL, rfl, trivial⟩
    · intro x hx; rw [h1] at hx; cases hx; exact ⟨"PT", .TIME, rfl, show IntTy.i64.InRange 5 by decide⟩
    · exact ⟨by decide, by decide⟩
    · intro x hx; rw [h0] at hx; cases hx; exact ⟨"PV", .INT, rfl, show IntTy.i16.InRange 1 by decide⟩
    · exact ⟨by decide, by decide⟩
    · exact ⟨by decide, by decide⟩

/-- Run in memory: the counter's CV is 1 and its Q TRUE, the timer's Q is TRUE and its ET 5. -/
example : (do
      let m ← exec pc .debug two (fun _ => 0) [.on 0 (.assign 0 (.bool true)), .on 1 (.assign 0 (.bool true)), .on 1 (.assign 1 (.int 5)),
        .on 1 (.call 10 10), .on 0 (.assign 2 (.int 1)), .on 0 (.call 0 0), .on 1 (.call 20 21)]
      let q ← stRead pc (named "CTU") 100 m 3
      let cv ← stRead pc (named "CTU") 100 m 4
      let tq ← stRead pc (named "TON") 112 m 2
      let et ← stRead pc (named "TON") 112 m 3
      pure (q, cv, tq, et)) = .ok (.bool true, .int 1, .bool true, .int 5) := by decide +kernel

end Verif.Abi
