import Verif.Proofs.Utf16
import Verif.Props.Strings
/-
C54-C57: src/string_conversion.rs.  C74: WSTRINGs with unpaired surrogates.
-/
namespace Verif
open Spec

/-! ### STRING_TO_WSTRING -/

/-- What STRING_TO_WSTRING_EXT does: the UTF-16 units of the text and nothing else. -/
theorem string_to_wstring (mem dest : List Nat) (t : List Char) (h : Holds mem (utf8 t)) :
    STRING_TO_WSTRING_EXT (some mem) (some dest) =
      if (utf16 t).length ≤ dest.length then .ok (utf16 t ++ dest.drop (utf16 t).length)
      else .ub := by
  unfold STRING_TO_WSTRING_EXT
  have hd : codec8.decode (some mem) = .ok t := decode_utf8 mem t h
  rw [hd]
  show (openDest (some dest) >>= fun d =>
    (t.foldlM (fun d c => (encode_utf16 c).foldlM Dest.put d) d >>= fun d => pure d.mem)) = _
  have key : ∀ (t : List Char) (d : Dest),
      t.foldlM (fun d c => (encode_utf16 c).foldlM Dest.put d) d =
        if (utf16 t).length ≤ d.room.length then
          .ok ⟨d.written ++ utf16 t, d.room.drop (utf16 t).length⟩ else .ub := by
    intro t
    induction t with
    | nil => intro d; simp [utf16_nil]
    | cons c t ih =>
      intro d
      rw [List.foldlM_cons, put_all, encode_utf16_eq, utf16_cons, List.length_append]
      by_cases h1 : (utf16Char c).length ≤ d.room.length
      · rw [if_pos h1, Res.bind_ok, ih]
        simp only [List.length_drop, List.drop_drop, List.append_assoc]
        by_cases h2 : (utf16 t).length ≤ d.room.length - (utf16Char c).length
        · rw [if_pos h2, if_pos (by omega)]
        · rw [if_neg h2, if_neg (by omega)]
      · rw [if_neg h1, Res.bind_ub, if_neg (by omega)]
  rw [openDest, Res.bind_ok, key]
  by_cases h1 : (utf16 t).length ≤ dest.length
  · rw [if_pos h1, if_pos h1]; rfl
  · rw [if_neg h1, if_neg h1]; rfl

/-! ### C55: WSTRING_TO_STRING -/

/-- The characters WSTRING_TO_STRING writes for an element. -/
def replaceLone : W16 → Char
  | .char c => c
  | .lone _ => '�'

/-- The iterator item for an element of a WSTRING. -/
def item16 (e : W16) : codec16.Item := W16.toOption e

theorem decode16_elements {mem s : List Nat} (h : Holds mem s) {es : List W16}
    (he : Elements s es) : codec16.decode (some mem) = .ok (es.map item16) := by
  unfold Codec.decode
  rw [ptr_to_slice_of_holds h, Res.bind_ok]
  show Res.ok (decode_utf16 s) = _
  rw [decode_elements he]
  rfl

/-- WSTRING_TO_STRING on any WSTRING: characters are transcoded, every unpaired surrogate
becomes U+FFFD; what is written is always well-formed UTF-8, with one terminator. -/
theorem C55_wstring_to_string (mem s dest : List Nat) (es : List W16) (h : Holds mem s)
    (he : Elements s es) :
    WSTRING_TO_STRING_EXT (some mem) (some dest) = store dest (utf8 (es.map replaceLone)) := by
  unfold WSTRING_TO_STRING_EXT
  rw [decode16_elements h he, Res.bind_ok]
  have hm : ∀ es : List W16, (es.map W16.toOption).map (fun c => c.getD (Char.ofNat 0xFFFD)) =
      es.map replaceLone := by
    intro es
    rw [List.map_map]
    apply List.map_congr_left
    intro e _
    cases e <;> rfl
  refine (congrArg (fun l => codec8.write l (some dest)) (hm es)).trans ?_
  have hw := write_text .STRING (es.map replaceLone) dest
  rw [show (es.map replaceLone).map (item .STRING) = es.map replaceLone from List.map_id _] at hw
  exact hw

/-- Every sequence of 16-bit units has exactly one division into elements, so the previous
theorem speaks about every WSTRING: WSTRING_TO_STRING never panics. -/
theorem C55_every_wstring (s : List Nat) (h16 : ∀ u ∈ s, u < 65536) :
    ∃ es, Elements s es ∧ ∀ es', Elements s es' → es' = es := by
  obtain ⟨es, he⟩ := elements_exist s h16
  exact ⟨es, he, fun es' he' => elements_unique he' he⟩

theorem C55_never_panics (mem s dest : List Nat) (h : Holds mem s) (h16 : ∀ u ∈ s, u < 65536) :
    WSTRING_TO_STRING_EXT (some mem) (some dest) ≠ .panic := by
  obtain ⟨es, he⟩ := elements_exist s h16
  rw [C55_wstring_to_string mem s dest es h he]
  unfold store; split <;> simp

/-- 'a', an unpaired high surrogate, '😀'. -/
example : WSTRING_TO_STRING_EXT (some [0x61, 0xD83D, 0xD83D, 0xDE00, 0]) (some (List.replicate 10 9)) =
    .ok [0x61, 0xEF, 0xBF, 0xBD, 0xF0, 0x9F, 0x98, 0x80, 0, 9] := by decide
example : Elements [0x61, 0xD83D, 0xD83D, 0xDE00] [.char 'a', .lone 0xD83D, .char '😀'] :=
  ⟨by decide, by intro u hu; simp at hu; subst hu; decide, by simp [NoSplitPair]⟩

/-! ### C54: round trips -/

/-- STRING -> WSTRING -> STRING reproduces a well-formed STRING, if the WSTRING buffer has a
terminator where the converted text ends (for instance because it was zero before; the
conversion writes none, see C56). -/
theorem C54_string_roundtrip_partial (mem w d w' : List Nat) (t : List Char)
    (h : Holds mem (utf8 t)) (hz : w[(utf16 t).length]? = some 0)
    (r : STRING_TO_WSTRING_EXT (some mem) (some w) = .ok w') :
    WSTRING_TO_STRING_EXT (some w') (some d) = store d (utf8 t) := by
  obtain ⟨hlt, hz⟩ := List.getElem?_eq_some_iff.1 hz
  rw [string_to_wstring mem w t h, if_pos (by omega)] at r
  have hw' : w' = utf16 t ++ 0 :: w.drop ((utf16 t).length + 1) := by
    rw [← Res.ok.inj r, List.drop_eq_getElem_cons hlt, hz]
  have hh : Holds w' (utf16 t) :=
    ⟨units_ne_zero .WSTRING (noNul_of_holds .STRING h), _, hw'⟩
  rw [C55_wstring_to_string w' _ d _ hh (elements_text t), List.map_map]
  congr 2
  exact List.map_id'' (fun _ => rfl) t

/-- Without that condition C54 is false: 'a' through a WSTRING that held 'xy' comes back as
'ay'. -/
theorem C54_refuted :
    ¬ (∀ (mem w d w' : List Nat) (t : List Char), Holds mem (utf8 t) →
        STRING_TO_WSTRING_EXT (some mem) (some w) = .ok w' →
        WSTRING_TO_STRING_EXT (some w') (some d) = store d (utf8 t)) := by
  intro h
  have := h [0x61, 0] [0x78, 0x79, 0] [9, 9, 9] [0x61, 0x79, 0] ['a'] ⟨by decide, [], by decide⟩
    (by decide)
  revert this; decide

/-- WSTRING -> STRING -> WSTRING reproduces a well-formed WSTRING, up to the missing
terminator. -/
theorem C54_wstring_roundtrip (mem d d' w : List Nat) (t : List Char) (h : Holds mem (utf16 t))
    (r : WSTRING_TO_STRING_EXT (some mem) (some d) = .ok d')
    (hroom : (utf16 t).length ≤ w.length) :
    STRING_TO_WSTRING_EXT (some d') (some w) = .ok (utf16 t ++ w.drop (utf16 t).length) := by
  rw [C55_wstring_to_string mem _ d _ h (elements_text t), List.map_map] at r
  have : t.map (replaceLone ∘ W16.char) = t := List.map_id'' (fun _ => rfl) t
  rw [this] at r
  have hh : Holds d' (utf8 t) :=
    holds_of_store r (units_ne_zero .STRING (noNul_of_holds .WSTRING h))
  rw [string_to_wstring d' w t hh, if_pos hroom]

/-- 'é😀' there and back. -/
example : STRING_TO_WSTRING_EXT (some [0xC3, 0xA9, 0xF0, 0x9F, 0x98, 0x80, 0])
    (some [0, 0, 0, 0, 0]) = .ok [0xE9, 0xD83D, 0xDE00, 0, 0] := by decide
example : WSTRING_TO_STRING_EXT (some [0xE9, 0xD83D, 0xDE00, 0, 0]) (some [0, 0, 0, 0, 0, 0, 0, 5]) =
    .ok [0xC3, 0xA9, 0xF0, 0x9F, 0x98, 0x80, 0, 5] := by decide

/-! ### C56: termination of STRING_TO_WSTRING -/

/-- C56 is false: STRING_TO_WSTRING writes no terminator, so with another previous content
the destination holds another string afterwards: 'a' over 'xy' gives 'ay'. -/
theorem C56_string_to_wstring_refuted :
    ¬ (∀ (mem dest out : List Nat) (t : List Char), Holds mem (utf8 t) →
        STRING_TO_WSTRING_EXT (some mem) (some dest) = .ok out → Holds out (utf16 t)) := by
  intro h
  have := h [0x61, 0] [0x78, 0x79, 0] [0x61, 0x79, 0] ['a'] ⟨by decide, [], by decide⟩ (by decide)
  have h2 : Holds [0x61, 0x79, 0] [0x61, 0x79] := ⟨by decide, [], rfl⟩
  have := holds_unique this h2
  revert this; decide

/-- What is true: the destination holds exactly the converted text iff the unit behind it was
zero before. -/
theorem C56_string_to_wstring_partial (mem dest out : List Nat) (t : List Char)
    (h : Holds mem (utf8 t)) (r : STRING_TO_WSTRING_EXT (some mem) (some dest) = .ok out) :
    Holds out (utf16 t) ↔ dest[(utf16 t).length]? = some 0 := by
  rw [string_to_wstring mem dest t h] at r
  split at r
  · rename_i hl
    have ho := (Res.ok.inj r).symm
    constructor
    · rintro ⟨_, tail, ht⟩
      rw [ho] at ht
      have hd := List.append_cancel_left ht
      have := congrArg (fun l => l[0]?) hd
      simpa [List.getElem?_drop] using this
    · intro hz
      obtain ⟨hlt, hz⟩ := List.getElem?_eq_some_iff.1 hz
      refine ⟨units_ne_zero .WSTRING (noNul_of_holds .STRING h), dest.drop ((utf16 t).length + 1), ?_⟩
      rw [ho, List.drop_eq_getElem_cons hlt, hz]
  · cases r

/-- WSTRING_TO_STRING always leaves a terminated string. -/
theorem C56_wstring_to_string (mem s dest out : List Nat) (es : List W16) (h : Holds mem s)
    (he : Elements s es) (r : WSTRING_TO_STRING_EXT (some mem) (some dest) = .ok out) :
    Holds out (utf8 (es.map replaceLone)) := by
  rw [C55_wstring_to_string mem s dest es h he] at r
  refine holds_of_store r (units_ne_zero .STRING ?_)
  intro c hc
  obtain ⟨e, hmem, rfl⟩ := List.mem_map.1 hc
  cases e with
  | lone u => show ('�' : Char).toNat ≠ 0; decide
  | char c =>
    intro h0
    apply h.1 0 ?_ rfl
    rw [he.units, List.mem_flatMap]
    refine ⟨_, hmem, ?_⟩
    have : c.toNat = 0 := h0
    simp [W16.units, utf16Char, this]

/-! ### C57: CHAR and WCHAR -/

/-- CHAR_TO_WCHAR maps byte `c` to code unit `c`. -/
theorem C57_char_to_wchar (c : Nat) (h : c < 256) : CHAR_TO_WCHAR c = c := by
  unfold CHAR_TO_WCHAR
  rw [encode_utf16_eq, utf16Char]
  simp only [toNat_ofNat (n := c) (by omega)]
  rw [if_pos (by omega)]; rfl

/-- WCHAR_TO_CHAR is the first byte of the character's UTF-8 form; for a surrogate it is
0xEF, the first byte of U+FFFD. -/
theorem C57_wchar_to_char (u : Nat) (h : u < 65536) :
    WCHAR_TO_CHAR u =
      if u < 0x80 then u
      else if u < 0x800 then 0xC0 + u / 64
      else if IsHigh u ∨ IsLow u then 0xEF
      else 0xE0 + u / 4096 := by
  have hsur := surrogate_test u h
  unfold WCHAR_TO_CHAR
  by_cases hs : 0xD800 ≤ u ∧ u ≤ 0xDFFF
  · have hd : decode_utf16 [u] = [none] := by
      rw [decode_utf16.eq_def]; dsimp only
      rw [if_neg (fun hc => hsur.1 hc hs)]
      split
      · simp [decode_utf16]
      · rfl
    rw [hd]
    rw [if_neg (by omega), if_neg (by omega), if_pos (by unfold IsHigh IsLow; omega)]
    decide
  · have hd : decode_utf16 [u] = [some (Char.ofNat u)] := by
      rw [decode_utf16.eq_def]; dsimp only
      rw [if_pos (hsur.2 hs)]
      simp [decode_utf16]
    rw [hd]
    simp only [List.map_cons, List.map_nil, Option.getD_some, encode_utf8_eq, utf8Char]
    rw [toNat_ofNat (n := u) (by omega)]
    by_cases h1 : u < 0x80
    · simp [h1]
    by_cases h2 : u < 0x800
    · simp [h1, h2]
    · simp only [h1, h2, h, if_true, if_false, List.headD_cons]
      rw [if_neg (by unfold IsHigh IsLow; omega)]

/-- C57 is false for bytes from 0x80: WCHAR_TO_CHAR(CHAR_TO_WCHAR(16#80)) = 16#C2. -/
theorem C57_refuted : ¬ ∀ c : Nat, c < 256 → WCHAR_TO_CHAR (CHAR_TO_WCHAR c) = c := by
  intro h
  have := h 0x80 (by decide)
  revert this; decide

/-- What is true: the round trip gives back exactly the ASCII bytes (and, by accident, 0xC3);
every other byte becomes 0xC2 or 0xC3. -/
theorem C57_roundtrip_partial (c : Nat) (h : c < 256) :
    (WCHAR_TO_CHAR (CHAR_TO_WCHAR c) = c ↔ c < 0x80 ∨ c = 0xC3) ∧
    (0x80 ≤ c → WCHAR_TO_CHAR (CHAR_TO_WCHAR c) = 0xC0 + c / 64) := by
  rw [C57_char_to_wchar c h, C57_wchar_to_char c (by omega)]
  constructor
  · by_cases h1 : c < 0x80
    · simp [h1]
    · rw [if_neg h1, if_pos (by omega)]; omega
  · intro h1
    rw [if_neg (by omega), if_pos (by omega)]

example : WCHAR_TO_CHAR (CHAR_TO_WCHAR 0x41) = 0x41 := by decide
example : WCHAR_TO_CHAR 0xD83D = 0xEF := by decide

/-! ### C74: unpaired surrogates

The WSTRING functions accept every sequence of 16-bit units.  An unpaired surrogate counts as
one character for the positions, and only writing it panics. -/

/-- All elements are characters. -/
def AllChars (es : List W16) : Prop := ∀ e ∈ es, ∃ c, e = .char c

theorem allUnits_chars {es : List W16} (h : AllChars es) :
    codec16.allUnits (es.map item16) = .ok (es.flatMap W16.units) := by
  induction es with
  | nil => rfl
  | cons e es ih =>
    obtain ⟨c, rfl⟩ := h _ (List.mem_cons_self ..)
    rw [List.map_cons, Codec.allUnits, ih fun e he => h e (List.mem_cons_of_mem _ he)]
    show (Res.ok (encode_utf16 c) >>= fun a => Res.ok (es.flatMap W16.units) >>= fun b =>
      pure (a ++ b)) = _
    rw [encode_utf16_eq]; rfl

theorem units16_lone (u : Nat) : codec16.units (item16 (.lone u)) = .panic := rfl

theorem units16_char (c : Char) : codec16.units (item16 (.char c)) = .ok (utf16Char c) := by
  show Res.ok (encode_utf16 c) = _
  rw [encode_utf16_eq]

theorem allUnits_lone {es : List W16} (h : ¬ AllChars es) :
    codec16.allUnits (es.map item16) = .panic := by
  induction es with
  | nil => exact absurd (fun e he => by cases he) h
  | cons e es ih =>
    rw [List.map_cons, Codec.allUnits]
    cases e with
    | lone u => rw [units16_lone]; rfl
    | char c =>
      rw [units16_char, Res.bind_ok, ih]
      · rfl
      · intro hall
        apply h
        intro e he
        rcases List.mem_cons.1 he with rfl | he
        · exact ⟨c, rfl⟩
        · exact hall e he

/-- Writing elements: their units and a terminator, or a panic if one of them is an unpaired
surrogate (in a buffer with room for two units per element). -/
theorem write_elements (es : List W16) (dest : List Nat) (hroom : es.length * 2 < dest.length) :
    (AllChars es → codec16.write (es.map item16) (some dest)
      = store dest (es.flatMap W16.units)) ∧
    (¬ AllChars es → codec16.write (es.map item16) (some dest) = .panic) := by
  constructor
  · intro h; exact write_eq _ _ _ (allUnits_chars h)
  · intro h
    refine write_panic codec16 ?_ _ dest 2 ?_ (allUnits_lone h)
      (by rw [List.length_map]; omega)
    · intro c
      cases c with
      | none => exact fun h => nomatch h
      | some c => exact fun h => nomatch h
    · intro c a hc
      cases c with
      | none => cases hc
      | some c =>
        have : a = utf16Char c := by
          rw [← encode_utf16_eq]; exact (Res.ok.inj hc).symm
        rw [this, utf16Char]; split <;> simp

/-- LEFT, RIGHT, MID and DELETE on a WSTRING of any 16-bit units, with legal parameters and a
buffer of at least two units per element: the selected elements are written if they are all
characters, and the call panics if one of them is an unpaired surrogate. -/
theorem C74_select (p : Profile) (mem s dest : List Nat) (es : List W16) (L P : Int)
    (h : Holds mem s) (he : Elements s es) (hlen : es.length < 2 ^ 31)
    (hroom : es.length * 2 < dest.length) (hL : 0 ≤ L) (hP : 1 ≤ P) (hP' : P ≤ es.length)
    (hLP : P - 1 + L ≤ es.length) :
    (let sel := es.take L.toNat
     (AllChars sel → left codec16 (some mem) L (some dest) = store dest (sel.flatMap W16.units)) ∧
     (¬ AllChars sel → left codec16 (some mem) L (some dest) = .panic)) ∧
    (let sel := es.drop (es.length - L.toNat)
     (AllChars sel → right codec16 (some mem) L (some dest) = store dest (sel.flatMap W16.units)) ∧
     (¬ AllChars sel → right codec16 (some mem) L (some dest) = .panic)) ∧
    (let sel := (es.drop (P - 1).toNat).take L.toNat
     (AllChars sel → mid p codec16 (some mem) L P (some dest) = store dest (sel.flatMap W16.units)) ∧
     (¬ AllChars sel → mid p codec16 (some mem) L P (some dest) = .panic)) ∧
    (let sel := es.take (P - 1).toNat ++ es.drop (P - 1 + L).toNat
     (AllChars sel → delete p codec16 (some mem) L P (some dest) = store dest (sel.flatMap W16.units)) ∧
     (¬ AllChars sel → delete p codec16 (some mem) L P (some dest) = .panic)) := by
  have hd := decode16_elements h he
  refine ⟨?_, ?_, ?_, ?_⟩
  · have hl : left codec16 (some mem) L (some dest) =
        codec16.write ((es.take L.toNat).map item16) (some dest) := by
      unfold left
      rw [if_neg (by omega), hd, Res.bind_ok]; dsimp only
      rw [List.length_map, asUsize_nonneg hL (by omega), if_neg (by omega), List.map_take]
    simp only [hl]
    exact write_elements _ dest (by rw [List.length_take]; omega)
  · have hl : right codec16 (some mem) L (some dest) =
        codec16.write ((es.drop (es.length - L.toNat)).map item16) (some dest) := by
      unfold right
      rw [if_neg (by omega), hd, Res.bind_ok]; dsimp only
      rw [List.length_map, asUsize_nonneg hL (by omega), if_neg (by omega), List.map_drop]
    simp only [hl]
    exact write_elements _ dest (by rw [List.length_drop]; omega)
  · have hl : mid p codec16 (some mem) L P (some dest) =
        codec16.write (((es.drop (P - 1).toNat).take L.toNat).map item16) (some dest) := by
      unfold mid
      rw [if_neg (by omega), hd, Res.bind_ok]; dsimp only
      rw [List.length_map, asUsize_nonneg hL (by omega),
        asUsize_nonneg (x := P) (by omega) (by omega),
        if_neg (by simp only [Bool.or_eq_true, decide_eq_true_eq]; omega),
        arith_u64 p (by omega) (by omega), Res.bind_ok, if_neg (by omega), List.map_take,
        List.map_drop, show P.toNat - 1 = (P - 1).toNat by omega]
    simp only [hl]
    exact write_elements _ dest (by rw [List.length_take, List.length_drop]; omega)
  · have hl : delete p codec16 (some mem) L P (some dest) =
        codec16.write ((es.take (P - 1).toNat ++ es.drop (P - 1 + L).toNat).map item16)
          (some dest) := by
      unfold delete
      rw [hd, Res.bind_ok]; dsimp only
      rw [List.length_map, asI32_small hlen,
        if_neg (by simp only [Bool.or_eq_true, decide_eq_true_eq]; omega),
        asUsize_nonneg hL (by omega), asUsize_nonneg (x := P) (by omega) (by omega),
        arith_u64 p (by omega) (by omega), Res.bind_ok, if_neg (by omega), List.map_append,
        List.map_take, List.map_drop, show P.toNat - 1 = (P - 1).toNat by omega,
        show ((L.toNat : Int) + ((P - 1).toNat : Int)).toNat = (P - 1 + L).toNat by omega]
    simp only [hl]
    exact write_elements _ dest (by
      rw [List.length_append, List.length_take, List.length_drop]; omega)

/-- The same for INSERT and REPLACE. -/
theorem C74_insert_replace (p : Profile) (mem mem' s s' dest : List Nat) (es es' : List W16)
    (L P : Int) (h : Holds mem s) (he : Elements s es) (h' : Holds mem' s')
    (he' : Elements s' es') (hlen : es.length < 2 ^ 31)
    (hroom : (es.length + es'.length) * 2 < dest.length) (hL : 0 ≤ L) (hP : 1 ≤ P)
    (hP' : P ≤ es.length) (hLP : P - 1 + L ≤ es.length) :
    (let sel := es.take P.toNat ++ es' ++ es.drop P.toNat
     (AllChars sel → insert codec16 (some mem) (some mem') P (some dest)
        = store dest (sel.flatMap W16.units)) ∧
     (¬ AllChars sel → insert codec16 (some mem) (some mem') P (some dest) = .panic)) ∧
    (let sel := es.take (P - 1).toNat ++ es' ++ es.drop (P - 1 + L).toNat
     (AllChars sel → replace p codec16 (some mem) (some mem') L P (some dest)
        = store dest (sel.flatMap W16.units)) ∧
     (¬ AllChars sel → replace p codec16 (some mem) (some mem') L P (some dest) = .panic)) := by
  have hd := decode16_elements h he
  have hd' := decode16_elements h' he'
  constructor
  · have hl : insert codec16 (some mem) (some mem') P (some dest) =
        codec16.write ((es.take P.toNat ++ es' ++ es.drop P.toNat).map item16) (some dest) := by
      unfold insert
      rw [hd, Res.bind_ok]; dsimp only
      rw [List.length_map, asI32_small hlen,
        if_neg (by simp only [Bool.or_eq_true, decide_eq_true_eq]; omega), hd', Res.bind_ok,
        asUsize_nonneg (x := P) (by omega) (by omega), List.map_append, List.map_append,
        List.map_take, List.map_drop]
    simp only [hl]
    exact write_elements _ dest (by
      simp only [List.length_append, List.length_take, List.length_drop]; omega)
  · have hl : replace p codec16 (some mem) (some mem') L P (some dest) =
        codec16.write ((es.take (P - 1).toNat ++ es' ++ es.drop (P - 1 + L).toNat).map item16)
          (some dest) := by
      unfold replace
      rw [hd, Res.bind_ok]; dsimp only
      rw [List.length_map, asI32_small hlen,
        if_neg (by simp only [Bool.or_eq_true, decide_eq_true_eq]; omega),
        asUsize_nonneg hL (by omega), asUsize_nonneg (x := P - 1) (by omega) (by omega),
        arith_u64 p (by omega) (by omega), Res.bind_ok, if_neg (by omega), hd', Res.bind_ok,
        List.map_append, List.map_append, List.append_assoc,
        List.map_take, List.map_drop,
        show ((L.toNat : Int) + ((P - 1).toNat : Int)).toNat = (P - 1 + L).toNat by omega]
    simp only [hl]
    exact write_elements _ dest (by
      simp only [List.length_append, List.length_take, List.length_drop]; omega)

/-- An unpaired surrogate in front does not disturb RIGHT, but LEFT panics on it. -/
example : right codec16 (some [0xDC00, 0x61, 0x62, 0]) 2 (some (List.replicate 7 9)) =
    .ok [0x61, 0x62, 0, 9, 9, 9, 9] := by decide
example : left codec16 (some [0xDC00, 0x61, 0x62, 0]) 2 (some (List.replicate 7 9)) =
    .panic := by decide
/-- REPLACE removes the unpaired surrogate without a panic. -/
example : replace .debug codec16 (some [0xDC00, 0x61, 0]) (some [0x62, 0]) 1 1
    (some (List.replicate 7 9)) = .ok [0x62, 0x61, 0, 9, 9, 9, 9] := by decide

end Verif
