import Verif.Props.FloatText
/-
C86-C88: text to REAL and LREAL.  C84: accuracy and order of the text of a float.
-/
namespace Verif
open Spec FloatFmt

/-! ### C86: the grammar and the value -/

private theorem withSign_false (f : FloatFmt) (p : Nat) : f.withSign false p = p := by
  unfold withSign; simp

private theorem decimalLiteral_head {s : List Nat} {v : ℚ} (h : DecimalLiteral s v) : ∃ c cs, s = c :: cs ∧ c ≠ 43 ∧ c ≠ 45 := by
  obtain ⟨whole, point, fraction, expo, n, e, rfl, hpt, hn, -⟩ := h
  cases whole with
  | cons c cs =>
    refine ⟨c, cs ++ point ++ fraction ++ expo, by simp, ?_⟩
    obtain ⟨d, hd⟩ := numeral_mem hn c (by simp)
    unfold IsDigit at hd; omega
  | nil =>
    rcases hpt with rfl | ⟨rfl, rfl⟩
    · exact ⟨46, fraction ++ expo, by simp [ascii], by omega, by omega⟩
    · obtain ⟨c, cs, hc⟩ := numeral_cons hn
      simp at hc

private theorem word_head {w : String} {s : List Nat} (h : IsWord w s) (hw : w = "inf" ∨ w = "infinity" ∨ w = "nan") :
    ∃ c cs, s = c :: cs ∧ c ≠ 43 ∧ c ≠ 45 := by
  unfold IsWord at h
  have : ∃ l ls, ascii w = l :: ls ∧ 97 ≤ l := by
    rcases hw with rfl | rfl | rfl
    · exact ⟨105, [110, 102], by decide, by omega⟩
    · exact ⟨105, [110, 102, 105, 110, 105, 116, 121], by decide, by omega⟩
    · exact ⟨110, [97, 110], by decide, by omega⟩
  obtain ⟨l, ls, e, hl⟩ := this
  rw [e] at h
  cases h with
  | cons hc _ => exact ⟨_, _, rfl, by omega, by omega⟩

private theorem parseMagnitude_iff (f : FloatFmt) (s : List Nat) (r : Nat) : parseMagnitude f s = some r ↔
    (∃ m e, parse_number s = some (m, e) ∧ r = decimalToFloat f m e) ∨
    ((¬ ∃ v, DecimalLiteral s v) ∧ parse_inf_nan f s = some r) := by
  unfold parseMagnitude
  cases h : parse_number s with
  | none =>
    have hno : ¬ ∃ v, DecimalLiteral s v := by
      rintro ⟨v, hv⟩
      obtain ⟨m, e, h1, -⟩ := parse_number_complete hv
      rw [h] at h1; cases h1
    constructor
    · exact fun hr => .inr ⟨hno, hr⟩
    · rintro (⟨m, e, h1, -⟩ | ⟨-, hr⟩)
      · cases h1
      · exact hr
  | some p =>
    obtain ⟨m, e⟩ := p
    dsimp only
    rw [Option.some.injEq]
    constructor
    · exact fun hr => .inl ⟨m, e, rfl, hr.symm⟩
    · rintro (⟨m', e', h1, rfl⟩ | ⟨hno, -⟩)
      · injection h1 with h1
        injection h1 with h2 h3
        rw [h2, h3]
      · exact absurd ⟨_, parse_number_sound h⟩ hno

private theorem magnitude_head {f : FloatFmt} {s : List Nat} {r : Nat} (h : parseMagnitude f s = some r) :
    ∃ c cs, s = c :: cs ∧ c ≠ 43 ∧ c ≠ 45 := by
  rcases (parseMagnitude_iff f s r).1 h with ⟨m, e, h1, -⟩ | ⟨-, h1⟩
  · exact decimalLiteral_head (parse_number_sound h1)
  · rcases (parse_inf_nan_iff f s r).1 h1 with ⟨h1 | h1, -⟩ | ⟨h1, -⟩
    · exact word_head h1 (.inl rfl)
    · exact word_head h1 (.inr (.inl rfl))
    · exact word_head h1 (.inr (.inr rfl))

/-- The sign of a float text. -/
private theorem parseFloat_sign (f : FloatFmt) {sign : String × Int} (hs : sign ∈ signs) (body : List Nat) (p : Nat)
    (h : parseMagnitude f body = some p) :
    parseFloat f (ascii sign.1 ++ body) = some (f.withSign (decide (sign.1 = "-")) p) := by
  unfold signs at hs
  simp only [List.mem_cons, List.not_mem_nil, or_false] at hs
  rcases hs with rfl | rfl | rfl
  · obtain ⟨c, cs, rfl, h1, h2⟩ := magnitude_head h
    show parseFloat f (c :: cs) = _
    unfold parseFloat
    dsimp only
    rw [if_neg (by simpa using h2), if_neg (by simpa using h1), h]
    exact congrArg some (withSign_false f p).symm
  · show parseFloat f (43 :: body) = _
    unfold parseFloat
    dsimp only
    rw [if_neg (by decide), if_pos (by decide), h]
    exact congrArg some (withSign_false f p).symm
  · show parseFloat f (45 :: body) = _
    unfold parseFloat
    dsimp only
    rw [if_pos (by decide), h]; rfl

private theorem parseFloat_text (f : FloatFmt) (s : List Nat) (r : Nat) (h : parseFloat f s = some r) : IsFloatText s := by
  have key : ∀ (sign : String × Int), sign ∈ signs → ∀ body p, s = ascii sign.1 ++ body → parseMagnitude f body = some p →
      IsFloatText s := by
    intro sign hs body p he hp
    refine ⟨sign, hs, body, he, ?_⟩
    rcases (parseMagnitude_iff f body p).1 hp with ⟨m, e, h1, -⟩ | ⟨-, h1⟩
    · exact .inl ⟨_, parse_number_sound h1⟩
    · rcases (parse_inf_nan_iff f body p).1 h1 with ⟨h1 | h1, -⟩ | ⟨h1, -⟩
      · exact .inr (.inl h1)
      · exact .inr (.inr (.inl h1))
      · exact .inr (.inr (.inr h1))
  cases s with
  | nil => cases h
  | cons c cs =>
    unfold parseFloat at h
    dsimp only at h
    split at h
    · rename_i hc
      simp only [beq_iff_eq] at hc
      subst hc
      obtain ⟨p, hp, -⟩ := Option.map_eq_some_iff.1 h
      exact key ("-", -1) (by simp [signs]) cs p rfl hp
    · split at h
      · rename_i hc
        simp only [beq_iff_eq] at hc
        subst hc
        exact key ("+", 1) (by simp [signs]) cs r rfl h
      · exact key ("", 1) (by simp [signs]) (c :: cs) r rfl h

/-- Every float text is ASCII. -/
private theorem floatText_ascii {s : List Nat} (h : IsFloatText s) : ∀ b ∈ s, 0 < b ∧ b < 128 := by
  obtain ⟨sign, hs, body, rfl, h⟩ := h
  have digits : ∀ {l : List Nat} {n : Nat}, Numeral 10 l n → ∀ b ∈ l, 0 < b ∧ b < 128 := by
    intro l n hn b hb
    obtain ⟨d, hd⟩ := numeral_mem hn b hb
    unfold IsDigit at hd; omega
  have sgn : ∀ sign ∈ signs, ∀ b ∈ ascii sign.1, 0 < b ∧ b < 128 := by decide
  have letters : ∀ l ∈ ["e", "E"], ∀ b ∈ ascii l, 0 < b ∧ b < 128 := by decide
  have word : ∀ w, (∀ l ∈ ascii w, 97 ≤ l ∧ l < 128) → IsWord w body → ∀ b ∈ body, 0 < b ∧ b < 128 := by
    intro w
    unfold IsWord
    generalize ascii w = l
    intro hl hw
    clear h
    induction hw with
    | nil => intro b hb; cases hb
    | cons hc _ ih =>
      intro b hb
      rcases List.mem_cons.1 hb with rfl | hb
      · have := hl _ (List.mem_cons_self ..); omega
      · exact ih (fun x hx => hl x (List.mem_cons_of_mem _ hx)) b hb
  intro b hb
  rcases List.mem_append.1 hb with hb | hb
  · exact sgn sign hs b hb
  · rcases h with ⟨v, whole, point, fraction, expo, n, e, rfl, hpt, hn, hex, -⟩ | h | h | h
    · rcases List.mem_append.1 hb with hb | hb
      · rcases List.mem_append.1 hb with hb | hb
        · rcases List.mem_append.1 hb with hb | hb
          · exact digits hn b (by simp [hb])
          · rcases hpt with rfl | ⟨rfl, -⟩
            · have : b ∈ [46] := hb
              simp at this; omega
            · cases hb
        · exact digits hn b (by simp [hb])
      · rcases hex with ⟨rfl, -⟩ | ⟨l, hl, sign', hs', ds, k, rfl, hk, -⟩
        · cases hb
        · rcases List.mem_append.1 hb with hb | hb
          · rcases List.mem_append.1 hb with hb | hb
            · exact letters l hl b hb
            · exact sgn sign' hs' b hb
          · exact digits hk b hb
    · exact word _ (by decide) h b hb
    · exact word _ (by decide) h b hb
    · exact word _ (by decide) h b hb

private theorem read_eq (f : FloatFmt) {mem s : List Nat} (h : Holds mem s) :
    string_to_float f (some mem) = match parseFloat f s with | some r => .ok r | none => .panic := by
  unfold string_to_float
  rw [ptr_to_slice_of_holds h, Res.bind_ok]
  cases hp : parseFloat f s with
  | none =>
    dsimp only
    split <;> rfl
  | some r =>
    have hu : from_utf8 s = true :=
      (from_utf8_iff s).2 ⟨_, ascii_utf8 fun b hb => (floatText_ascii (parseFloat_text f s r hp) b hb).2⟩
    rw [if_pos hu]; rfl

/-- The float that a decimal number stands for. -/
private theorem nearest_decimal (f : FloatFmt) (hf : IsFloatTy f) (neg : Bool) (m : Nat) (e : Int) :
    IsNearestFloat f ((if neg then -1 else 1) * ((m : ℚ) * 10 ^ e)) (f.withSign neg (decimalToFloat f m e)) ∧
    (SignBit f (f.withSign neg (decimalToFloat f m e)) ↔ neg = true) := by
  have hstd := stdFmt hf
  have hden : 0 < 10 ^ (-e).toNat := Nat.pow_pos (by omega)
  refine ⟨f.round_signed hstd neg _ _ hden _ ?_, ?_⟩
  · have hv : ((m * 10 ^ e.toNat * 2 ^ f.qexp : Nat) : ℚ) / ((10 ^ (-e).toNat : Nat) : ℚ) / 2 ^ f.qexp = m * 10 ^ e := by
      have hQ : (2 : ℚ) ^ f.qexp ≠ 0 := by positivity
      have h10 : ((10 : ℚ) ^ e) = 10 ^ e.toNat / 10 ^ (-e).toNat := by
        rw [← zpow_natCast, ← zpow_natCast, ← zpow_sub₀ (by norm_num)]
        congr 1; omega
      rw [h10]; push_cast; field_simp
    rw [hv]
    cases neg <;> simp
  · have hlt : decimalToFloat f m e < 2 ^ (f.mbits + f.ebits) :=
      lt_of_le_of_lt (f.roundMag_le_inf _ _) f.inf_lt'
    rw [signBit_iff, (f.withSign_spec neg _ hlt).1]

private theorem read_decimal (f : FloatFmt) (hf : IsFloatTy f) (mem s : List Nat) (h : Holds mem s)
    (sign : String × Int) (hs : sign ∈ signs) (body : List Nat) (he : s = ascii sign.1 ++ body) (v : ℚ)
    (hv : DecimalLiteral body v) : ∃ r, string_to_float f (some mem) = .ok r ∧
      IsNearestFloat f (sign.2 * v) r ∧ (SignBit f r ↔ sign.1 = "-") := by
  obtain ⟨m, e, h1, rfl⟩ := parse_number_complete hv
  have hp : parseMagnitude f body = some (decimalToFloat f m e) := (parseMagnitude_iff f body _).2 (.inl ⟨m, e, h1, rfl⟩)
  have hr := parseFloat_sign f hs body _ hp
  rw [read_eq f h, he, hr]
  refine ⟨_, rfl, ?_⟩
  obtain ⟨n1, n2⟩ := nearest_decimal f hf (decide (sign.1 = "-")) m e
  refine ⟨?_, by rw [n2, decide_eq_true_eq]⟩
  have : ((sign.2 : Int) : ℚ) = if decide (sign.1 = "-") then -1 else 1 := by
    unfold signs at hs
    simp only [List.mem_cons, List.not_mem_nil, or_false] at hs
    rcases hs with rfl | rfl | rfl <;> simp
  rw [this]; exact n1

/-- **C86.** STRING_TO_LREAL and STRING_TO_REAL read a decimal number with an optional sign as the nearest number of their
type (ties to even; infinity if it is too large); the sign bit is set exactly for a minus sign. -/
theorem C86_decimal (mem s : List Nat) (h : Holds mem s) (sign : String × Int) (hs : sign ∈ signs) (body : List Nat)
    (he : s = ascii sign.1 ++ body) (v : ℚ) (hv : DecimalLiteral body v) :
    (∃ r, STRING_TO_LREAL (some mem) = .ok r ∧ IsNearestFloat .f64 (sign.2 * v) r ∧ (SignBit .f64 r ↔ sign.1 = "-")) ∧
    (∃ r, STRING_TO_REAL (some mem) = .ok r ∧ IsNearestFloat .f32 (sign.2 * v) r ∧ (SignBit .f32 r ↔ sign.1 = "-")) :=
  ⟨read_decimal .f64 (.inr rfl) mem s h sign hs body he v hv, read_decimal .f32 (.inl rfl) mem s h sign hs body he v hv⟩

private theorem read_word (f : FloatFmt) (hf : IsFloatTy f) (mem s : List Nat) (h : Holds mem s)
    (sign : String × Int) (hs : sign ∈ signs) (body : List Nat) (he : s = ascii sign.1 ++ body) :
    (IsWord "inf" body ∨ IsWord "infinity" body → ∃ r, string_to_float f (some mem) = .ok r ∧
      ¬ IsNaN f r ∧ ¬ IsFinite f r ∧ (SignBit f r ↔ sign.1 = "-")) ∧
    (IsWord "nan" body → ∃ r, string_to_float f (some mem) = .ok r ∧ IsNaN f r) := by
  have hno : ∀ w, (w = "inf" ∨ w = "infinity" ∨ w = "nan") → IsWord w body → parse_number body = none := by
    intro w hw hb
    cases hp : parse_number body with
    | none => rfl
    | some p =>
      exfalso
      obtain ⟨c, cs, rfl, -⟩ := word_head hb hw
      obtain ⟨whole, point, fraction, expo, n, e, heq, hpt, hn, -⟩ := parse_number_sound (m := p.1) (e := p.2) hp
      have hc : 65 ≤ c := by
        unfold IsWord at hb
        rcases hw with rfl | rfl | rfl
        · have : ascii "inf" = [105, 110, 102] := by decide
          rw [this] at hb; cases hb; omega
        · have : ascii "infinity" = [105, 110, 102, 105, 110, 105, 116, 121] := by decide
          rw [this] at hb; cases hb; omega
        · have : ascii "nan" = [110, 97, 110] := by decide
          rw [this] at hb; cases hb; omega
      cases whole with
      | cons d ds =>
        injection (by simpa using heq : c :: cs = d :: (ds ++ (point ++ (fraction ++ expo)))) with h1 h2
        obtain ⟨k, hk⟩ := numeral_mem hn d (by simp)
        unfold IsDigit at hk; omega
      | nil =>
        rcases hpt with rfl | ⟨rfl, rfl⟩
        · injection (by simpa [ascii] using heq : c :: cs = 46 :: (fraction ++ expo)) with h1 h2
          omega
        · obtain ⟨c, cs, hc⟩ := numeral_cons hn
          simp at hc
  have hmag : ∀ w, (w = "inf" ∨ w = "infinity" ∨ w = "nan") → IsWord w body → parseMagnitude f body = parse_inf_nan f body := by
    intro w hw hb
    unfold parseMagnitude; rw [hno w hw hb]
  constructor
  · intro hb
    have hp : parseMagnitude f body = some f.inf := by
      rcases hb with hb | hb
      · rw [hmag _ (.inl rfl) hb]; exact (parse_inf_nan_iff f body _).2 (.inl ⟨.inl hb, rfl⟩)
      · rw [hmag _ (.inr (.inl rfl)) hb]; exact (parse_inf_nan_iff f body _).2 (.inl ⟨.inr hb, rfl⟩)
    rw [read_eq f h, he, parseFloat_sign f hs body _ hp]
    refine ⟨_, rfl, ?_⟩
    obtain ⟨s1, -, s3, s4, -⟩ := f.withSign_spec (decide (sign.1 = "-")) f.inf f.inf_lt'
    rw [not_isNaN_iff, isFinite_iff, signBit_iff, s1, s3, s4, f.inf_spec.1, f.inf_spec.2, decide_eq_true_eq]
    simp
  · intro hb
    have hp : parseMagnitude f body = some f.nan := by
      rw [hmag _ (.inr (.inr rfl)) hb]; exact (parse_inf_nan_iff f body _).2 (.inr ⟨hb, rfl⟩)
    rw [read_eq f h, he, parseFloat_sign f hs body _ hp]
    refine ⟨_, rfl, ?_⟩
    have hlt : f.nan < 2 ^ (f.mbits + f.ebits) := by rcases hf with rfl | rfl <;> decide +kernel
    rw [isNaN_iff, (f.withSign_spec _ _ hlt).2.2.1]
    exact f.nan_spec (stdFmt hf).m1

/-- **C86**, `inf`, `infinity` and `nan` in any case give an infinity with that sign, and a NaN. -/
theorem C86_words (mem s : List Nat) (h : Holds mem s) (sign : String × Int) (hs : sign ∈ signs) (body : List Nat)
    (he : s = ascii sign.1 ++ body) :
    (IsWord "inf" body ∨ IsWord "infinity" body →
      (∃ r, STRING_TO_LREAL (some mem) = .ok r ∧ ¬ IsNaN .f64 r ∧ ¬ IsFinite .f64 r ∧ (SignBit .f64 r ↔ sign.1 = "-")) ∧
      (∃ r, STRING_TO_REAL (some mem) = .ok r ∧ ¬ IsNaN .f32 r ∧ ¬ IsFinite .f32 r ∧ (SignBit .f32 r ↔ sign.1 = "-"))) ∧
    (IsWord "nan" body →
      (∃ r, STRING_TO_LREAL (some mem) = .ok r ∧ IsNaN .f64 r) ∧
      (∃ r, STRING_TO_REAL (some mem) = .ok r ∧ IsNaN .f32 r)) := by
  obtain ⟨a1, a2⟩ := read_word .f64 (.inr rfl) mem s h sign hs body he
  obtain ⟨b1, b2⟩ := read_word .f32 (.inl rfl) mem s h sign hs body he
  exact ⟨fun hb => ⟨a1 hb, b1 hb⟩, fun hb => ⟨a2 hb, b2 hb⟩⟩

/-- **C86**, every other string (also one that is not UTF-8) aborts the program. -/
theorem C86_otherwise_panics (mem s : List Nat) (h : Holds mem s) (hs : ¬ IsFloatText s) :
    STRING_TO_LREAL (some mem) = .panic ∧ STRING_TO_REAL (some mem) = .panic := by
  have key : ∀ f, string_to_float f (some mem) = .panic := by
    intro f
    rw [read_eq f h]
    cases hp : parseFloat f s with
    | none => rfl
    | some r => exact absurd (parseFloat_text f s r hp) hs
  exact ⟨key _, key _⟩

/-- **C86**, a signed decimal number has one value. -/
theorem C86_unambiguous (s : List Nat) (v w : ℚ) (h : SignedDecimal s v) (h' : SignedDecimal s w) : v = w := by
  obtain ⟨sign, hs, body, a, he, ha, rfl⟩ := h
  obtain ⟨sign', hs', body', b, he', hb, rfl⟩ := h'
  obtain ⟨c, cs, hc, c1, c2⟩ := decimalLiteral_head ha
  obtain ⟨d, ds, hd, d1, d2⟩ := decimalLiteral_head hb
  rw [he] at he'
  unfold signs at hs hs'
  simp only [List.mem_cons, List.not_mem_nil, or_false] at hs hs'
  have key : body = body' → ∀ k : Int, (k : ℚ) * a = k * b := by
    rintro rfl k; rw [decimalLiteral_unique ha hb]
  rcases hs with rfl | rfl | rfl <;> rcases hs' with rfl | rfl | rfl
  · exact key he' 1
  · have : body = 43 :: body' := he'
    rw [hc] at this; injection this with h1 _; exact absurd h1 c1
  · have : body = 45 :: body' := he'
    rw [hc] at this; injection this with h1 _; exact absurd h1 c2
  · have : 43 :: body = body' := he'
    rw [hd] at this; injection this with h1 _; exact absurd h1.symm d1
  · have : (43 : Nat) :: body = 43 :: body' := he'
    injection this with _ h1; exact key h1 1
  · have : (43 : Nat) :: body = 45 :: body' := he'
    injection this with h1 _; omega
  · have : 45 :: body = body' := he'
    rw [hd] at this; injection this with h1 _; exact absurd h1.symm d2
  · have : (45 : Nat) :: body = 43 :: body' := he'
    injection this with h1 _; omega
  · have : (45 : Nat) :: body = 45 :: body' := he'
    injection this with _ h1; exact key h1 (-1)

example : STRING_TO_LREAL (some (ascii "-.5e3" ++ [0])) = .ok 0xC07F400000000000 := by decide +kernel
example : STRING_TO_LREAL (some (ascii "5." ++ [0])) = .ok 0x4014000000000000 := by decide +kernel
example : STRING_TO_LREAL (some (ascii "0.1" ++ [0])) = .ok 0x3FB999999999999A := by decide +kernel
example : STRING_TO_REAL (some (ascii "0.1" ++ [0])) = .ok 0x3DCCCCCD := by decide +kernel
example : STRING_TO_REAL (some (ascii "1e39" ++ [0])) = .ok 0x7F800000 := by decide +kernel
example : STRING_TO_LREAL (some (ascii "-InFinity" ++ [0])) = .ok 0xFFF0000000000000 := by decide +kernel
example : STRING_TO_LREAL (some (ascii "." ++ [0])) = .panic := by decide +kernel
example : STRING_TO_LREAL (some (ascii "1,5" ++ [0])) = .panic := by decide +kernel
example : STRING_TO_LREAL (some (ascii " 1" ++ [0])) = .panic := by decide +kernel
example : STRING_TO_LREAL (some [0]) = .panic := by decide +kernel
example : DecimalLiteral (ascii ".5e3") 500 :=
  ⟨[], ascii ".", ascii "5", ascii "e3", 5, 3, by decide, .inl rfl,
    ⟨[5], .cons ⟨by omega, .inl ⟨by omega, rfl⟩⟩ .nil, by simp, by decide⟩,
    .inr ⟨"e", by simp, ("", 1), by simp [signs], ascii "3", 3, by decide,
      ⟨[3], .cons ⟨by omega, .inl ⟨by omega, rfl⟩⟩ .nil, by simp, by decide⟩, by decide⟩, by
      rw [show (ascii "5").length = 1 from by decide]; norm_num⟩

/-! ### C87: reading back a written number -/

/-- Reading the text of a finite float. -/
private theorem read_text (f : FloatFmt) (hf : IsFloatTy f) (limit : ℚ) (x : Nat) (t mem : List Nat)
    (ht : FloatText f limit x t) (hx : IsFinite f x) (hm : Holds mem t) :
    ∃ r q, string_to_float f (some mem) = .ok r ∧ SignedDecimal t q ∧ IsNearestFloat f q r ∧
      (0 < limit → (SignBit f r ↔ SignBit f x)) := by
  have hsb : 0 < limit → limit ≤ floatValue f x → ¬ SignBit f x := by
    intro hl hv hb
    rw [signBit_iff] at hb
    rw [f.floatValue_eq (ebits_of hf), hb] at hv
    have : (0 : ℚ) ≤ (f.mag x : ℚ) / 2 ^ f.qexp := by positivity
    simp only [if_true] at hv
    linarith
  obtain ⟨-, -, t3, t4⟩ := ht
  rcases lt_or_ge (floatValue f x) limit with hv | hv
  · obtain ⟨n, -, rfl⟩ := t3 hx hv
    by_cases hb : SignBit f x
    · have he : signText f x ++ sixDecimals n = ascii ("-", (-1 : Int)).1 ++ sixDecimals n := by
        unfold signText; rw [if_pos hb]
      obtain ⟨r, r1, r2, r3⟩ := read_decimal f hf mem _ hm ("-", -1) (by simp [signs]) _ he _ (literal_six n)
      exact ⟨r, _, r1, ⟨("-", -1), by simp [signs], _, _, he, literal_six n, rfl⟩, r2, fun _ => by simp [r3, hb]⟩
    · have he : signText f x ++ sixDecimals n = ascii ("", (1 : Int)).1 ++ sixDecimals n := by
        unfold signText; rw [if_neg hb]; rfl
      obtain ⟨r, r1, r2, r3⟩ := read_decimal f hf mem _ hm ("", 1) (by simp [signs]) _ he _ (literal_six n)
      exact ⟨r, _, r1, ⟨("", 1), by simp [signs], _, _, he, literal_six n, rfl⟩, r2, fun _ => by simp [r3, hb]⟩
  · obtain ⟨k, m, n, e, -, -, -, -, -, -, rfl⟩ := t4 hx hv
    obtain ⟨r, r1, r2, r3⟩ := read_decimal f hf mem _ hm ("", 1) (by simp [signs]) _ rfl _ (literal_scientific n e)
    exact ⟨r, _, r1, ⟨("", 1), by simp [signs], _, _, rfl, literal_scientific n e, rfl⟩, r2,
      fun hl => by simp [r3, hsb hl hv]⟩

/-- The texts that are written can be read. -/
private theorem text_isFloatText (f : FloatFmt) (limit : ℚ) (x : Nat) (t : List Nat) (ht : FloatText f limit x t) :
    IsFloatText t := by
  have hsign : ∀ body, ((∃ v, DecimalLiteral body v) ∨ IsWord "inf" body ∨ IsWord "infinity" body ∨ IsWord "nan" body) →
      IsFloatText (signText f x ++ body) := by
    intro body hb
    unfold signText
    split
    · exact ⟨("-", -1), by simp [signs], body, rfl, hb⟩
    · exact ⟨("", 1), by simp [signs], body, rfl, hb⟩
  obtain ⟨t1, t2, t3, t4⟩ := ht
  by_cases hn : IsNaN f x
  · rw [t1 hn]
    exact ⟨("", 1), by simp [signs], _, rfl, .inr (.inr (.inr (.cons (.inr rfl) (.cons (.inl rfl) (.cons (.inr rfl) .nil)))))⟩
  by_cases hf : IsFinite f x
  · rcases lt_or_ge (floatValue f x) limit with hv | hv
    · obtain ⟨n, -, rfl⟩ := t3 hf hv
      exact hsign _ (.inl ⟨_, literal_six n⟩)
    · obtain ⟨k, m, n, e, -, -, -, -, -, -, rfl⟩ := t4 hf hv
      exact ⟨("", 1), by simp [signs], _, rfl, .inl ⟨_, literal_scientific n e⟩⟩
  · rw [t2 hn hf]
    exact hsign _ (.inr (.inl (.cons (.inl rfl) (.cons (.inl rfl) (.cons (.inl rfl) .nil)))))

/-- A written text in a zeroed buffer with room for a terminator. -/
private theorem written_holds {f : FloatFmt} {limit : ℚ} {x : Nat} {t mem : List Nat} (ht : FloatText f limit x t)
    {n : Nat} (hn : 82 ≤ n) (h : writeText (List.replicate n 0) t = .ok mem) : Holds mem t := by
  unfold writeText at h
  split at h
  · rename_i hl
    rw [← Res.ok.inj h]
    refine (holds_written ?_).2 ?_
    · intro b hb; have := floatText_ascii (text_isFloatText f limit x t ht) b hb; omega
    · rw [List.getElem?_replicate, if_pos (by omega)]
  · cases h

/-- The functions that write the text of a float: type of the number, and the limit from which on the notation is scientific. -/
inductive FloatToString : FloatFmt → Nat → (Nat → Ptr → Res (List Nat)) → Prop
  | lreal : FloatToString .f64 14 LREAL_TO_STRING_EXT
  | real : FloatToString .f32 14 REAL_TO_STRING
  | real_ext : FloatToString .f64 6 REAL_TO_STRING_EXT

private theorem floatToString_text {f : FloatFmt} {e : Nat} {conv : Nat → Ptr → Res (List Nat)} (hc : FloatToString f e conv)
    (x : Nat) (hx : x < 2 ^ (1 + f.mbits + f.ebits)) {n : Nat} (hn : 82 ≤ n) {mem s : List Nat}
    (hr : conv x (some (List.replicate n 0)) = .ok mem) (hs : Holds mem s) :
    IsFloatTy f ∧ FloatText f (10 ^ e) x s := by
  have hl : 81 ≤ (List.replicate n 0).length := by rw [List.length_replicate]; omega
  cases hc with
  | lreal =>
    obtain ⟨t, ht, hw⟩ := C83_lreal x
    rw [hw _ hl] at hr
    exact ⟨.inr rfl, holds_unique (written_holds ht hn hr) hs ▸ ht⟩
  | real =>
    obtain ⟨t, ht, hw⟩ := C83_real x hx
    rw [hw _ hl] at hr
    exact ⟨.inl rfl, holds_unique (written_holds ht hn hr) hs ▸ ht⟩
  | real_ext =>
    obtain ⟨t, ht, hw⟩ := C83_real_ext x
    rw [hw _ hl] at hr
    exact ⟨.inr rfl, holds_unique (written_holds ht hn hr) hs ▸ ht⟩

/-- **C84.** The number shown differs from the value by at most half a unit of the sixth decimal, from the limit on by
at most half a millionth of the value. -/
theorem C84_accuracy {f : FloatFmt} {e : Nat} {conv : Nat → Ptr → Res (List Nat)} (hc : FloatToString f e conv)
    (x : Nat) (hx : x < 2 ^ (1 + f.mbits + f.ebits)) (hfin : IsFinite f x) (n : Nat) (hn : 82 ≤ n) (mem s : List Nat)
    (hr : conv x (some (List.replicate n 0)) = .ok mem) (hs : Holds mem s) :
    ∃ q, SignedDecimal s q ∧ (floatValue f x < 10 ^ e → |floatValue f x - q| ≤ 1 / 2 / 10 ^ 6) ∧
      (10 ^ e ≤ floatValue f x → |floatValue f x - q| ≤ 1 / 2 / 10 ^ 6 * floatValue f x) := by
  obtain ⟨hf, ht⟩ := floatToString_text hc x hx hn hr hs
  exact text_accuracy f hf _ x s ht hfin

/-- **C84**, order: of two finite floats the larger one never shows a smaller number. -/
theorem C84_monotone {f : FloatFmt} {e : Nat} {conv : Nat → Ptr → Res (List Nat)} (hc : FloatToString f e conv)
    (x y : Nat) (hx : x < 2 ^ (1 + f.mbits + f.ebits)) (hy : y < 2 ^ (1 + f.mbits + f.ebits)) (hfx : IsFinite f x)
    (hfy : IsFinite f y) (hxy : floatValue f x ≤ floatValue f y) (n : Nat) (hn : 82 ≤ n) (mem mem' s s' : List Nat)
    (hr : conv x (some (List.replicate n 0)) = .ok mem) (hs : Holds mem s)
    (hr' : conv y (some (List.replicate n 0)) = .ok mem') (hs' : Holds mem' s') :
    ∃ p q, SignedDecimal s p ∧ SignedDecimal s' q ∧ p ≤ q := by
  obtain ⟨hf, ht⟩ := floatToString_text hc x hx hn hr hs
  exact text_monotone f hf e x y s s' ht (floatToString_text hc y hy hn hr' hs').2 hfx hfy hxy

/-- -1.5 and 0.1 (REAL): "-1.500000" and "0.100000". -/
example : REAL_TO_STRING 0xBFC00000 (some (List.replicate 82 0)) = .ok (ascii "-1.500000" ++ List.replicate 73 0) ∧
    REAL_TO_STRING 0x3DCCCCCD (some (List.replicate 82 0)) = .ok (ascii "0.100000" ++ List.replicate 74 0) := by
  decide +kernel

/-- The two cases in which the text determines the float: its value is a whole number of millionths, or the
floats around it are more than a millionth apart. -/
private theorem exact_cases (f : FloatFmt) (hf : IsFloatTy f) (k : Nat) (hgap : (1 : ℚ) / 10 ^ 6 < 2 ^ k / 2 ^ f.mbits)
    (limit : ℚ) (hl : 0 < limit) (x : Nat) (hx : x < 2 ^ (1 + f.mbits + f.ebits)) (hfin : IsFinite f x) (t mem : List Nat)
    (ht : FloatText f limit x t) (hm : Holds mem t) (hv : floatValue f x < limit)
    (hc : (∃ j : ℤ, floatValue f x * 10 ^ 6 = j) ∨ 2 ^ k ≤ |floatValue f x|) :
    string_to_float f (some mem) = .ok x := by
  obtain ⟨r, q, r1, r2, ⟨r3, r4, r5⟩, r6⟩ := read_text f hf limit x t mem ht hfin hm
  obtain ⟨q', s1, s2, -⟩ := text_accuracy f hf limit x t ht hfin
  have hqq := C86_unambiguous t q q' r2 s1
  subst hqq
  have hacc := s2 hv
  have hnear := (r5 x hx ((not_isNaN_iff f x).2 hfin.nan)).1
  -- an exact decimal
  have hexact : q = floatValue f x → r = x := by
    intro he
    rw [he, sub_self, abs_zero, abs_le] at hnear
    refine pattern_ext f (ebits_of hf) r x r3 hx ?_ (by linarith [hnear.1, hnear.2])
    have := r6 hl
    rw [signBit_iff, signBit_iff] at this
    exact Bool.eq_iff_iff.2 this
  have hint : (∃ j : ℤ, floatValue f x * 10 ^ 6 = j) → q = floatValue f x := by
    rintro ⟨j, hj⟩
    obtain ⟨-, -, t3, -⟩ := ht
    obtain ⟨n, hn, rfl⟩ := t3 hfin hv
    have hj' : |floatValue f x| * 10 ^ 6 = (j.natAbs : ℚ) := by
      have : |floatValue f x * 10 ^ 6| = |floatValue f x| * 10 ^ 6 := by
        rw [abs_mul, abs_of_pos (by norm_num : (0 : ℚ) < 10 ^ 6)]
      rw [← this, hj, Nat.cast_natAbs, Int.cast_abs]
    rw [hj'] at hn
    have hnj := nearestEven_unique hn (nearestEven_nat _)
    have hlit : SignedDecimal (signText f x ++ sixDecimals n) (floatValue f x) := by
      have hs : floatValue f x = (if SignBit f x then -1 else 1) * |floatValue f x| := by
        rw [abs_floatValue f (ebits_of hf), f.floatValue_eq (ebits_of hf)]
        simp only [signBit_iff]
        split <;> ring
      have habs : |floatValue f x| = (n : ℚ) / 10 ^ 6 := by
        rw [hnj, ← hj']; ring
      rw [habs] at hs
      rw [hs]
      unfold signText
      split
      · exact ⟨("-", -1), by simp [signs], _, _, rfl, literal_six n, by norm_num⟩
      · exact ⟨("", 1), by simp [signs], _, _, rfl, literal_six n, by norm_num⟩
    exact C86_unambiguous _ _ _ r2 hlit
  rw [r1]
  congr 1
  rcases hc with hc | hc
  · exact hexact (hint hc)
  rcases eq_or_lt_of_le hc with heq | hlt
  · apply hexact
    apply hint
    -- a power of two
    rcases abs_eq (by positivity : (0 : ℚ) ≤ 2 ^ k) |>.1 heq.symm with e | e
    · exact ⟨2 ^ k * 10 ^ 6, by rw [e]; push_cast; ring⟩
    · exact ⟨-(2 ^ k * 10 ^ 6), by rw [e]; push_cast; ring⟩
  · by_contra hne
    have hvne : floatValue f x ≠ floatValue f r := by
      intro he
      apply hne
      refine pattern_ext f (ebits_of hf) r x r3 hx ?_ he.symm
      have := r6 hl
      rw [signBit_iff, signBit_iff] at this
      exact Bool.eq_iff_iff.2 this
    have hg := value_gap f (ebits_of hf) x r k hx r3 hlt hvne
    have htri : |floatValue f x - floatValue f r| ≤ |floatValue f x - q| + |q - floatValue f r| := abs_sub_le _ _ _
    rw [abs_sub_comm q (floatValue f x)] at hnear
    have h2 : (1 : ℚ) / 2 / 10 ^ 6 + 1 / 2 / 10 ^ 6 = 1 / 10 ^ 6 := by norm_num
    linarith

/-- C87 is false: six decimals are not enough for small numbers (`2^-1074` comes back as 0), seven digits not for large ones
(`123456789012345678`), and six decimals not for numbers with more digits in front of the point
(`2^32 + 11 * 2^-20`). -/
theorem C87_refuted : ¬ (∀ (x : Nat) (mem : List Nat), x < 2 ^ 64 → IsFinite .f64 x →
    LREAL_TO_STRING_EXT x (some (List.replicate 2049 0)) = .ok mem → STRING_TO_LREAL (some mem) = .ok x) := by
  intro h
  have h1 : LREAL_TO_STRING_EXT 1 (some (List.replicate 2049 0)) = .ok (ascii "0.000000" ++ List.replicate 2041 0) := by
    decide +kernel
  have := h 1 _ (by norm_num) (by unfold IsFinite; decide) h1
  revert this; decide +kernel

example : LREAL_TO_STRING_EXT 0x437b69b4ba630f35 (some (List.replicate 82 0)) =
    .ok (ascii "1.234568e17" ++ List.replicate 71 0) ∧
    STRING_TO_LREAL (some (ascii "1.234568e17" ++ List.replicate 71 0)) = .ok 0x437b69b4e351b400 := by decide +kernel
example : LREAL_TO_STRING_EXT 0x41F000000000000B (some (List.replicate 82 0)) =
    .ok (ascii "4294967296.000010" ++ List.replicate 65 0) ∧
    STRING_TO_LREAL (some (ascii "4294967296.000010" ++ List.replicate 65 0)) = .ok 0x41F000000000000A := by decide +kernel

/-- What is true of LREAL_TO_STRING and STRING_TO_LREAL (in a zeroed buffer, where the text fits): the number that comes back is the one
nearest to the decimal number in the text; it is the same number, bit for bit, for infinities, for whole multiples of a
millionth, and from `2^33` to `10^14`; NaN comes back as NaN. -/
theorem C87_partial (x : Nat) (hx : x < 2 ^ 64) (n : Nat) (hn : 82 ≤ n) (mem : List Nat)
    (h : LREAL_TO_STRING_EXT x (some (List.replicate n 0)) = .ok mem) :
    ∃ r, STRING_TO_LREAL (some mem) = .ok r ∧
      (IsNaN .f64 x → IsNaN .f64 r) ∧
      (¬ IsNaN .f64 x → ¬ IsFinite .f64 x → r = x) ∧
      (IsFinite .f64 x → ∃ t q, FloatText .f64 (10 ^ 14) x t ∧ SignedDecimal t q ∧ IsNearestFloat .f64 q r ∧
        (SignBit .f64 r ↔ SignBit .f64 x)) ∧
      (IsFinite .f64 x → floatValue .f64 x < 10 ^ 14 →
        (∃ j : ℤ, floatValue .f64 x * 10 ^ 6 = j) ∨ 2 ^ 33 ≤ |floatValue .f64 x| → r = x) := by
  obtain ⟨t, ht, hw⟩ := C83_lreal x
  rw [hw _ (by simp; omega)] at h
  have hm := written_holds ht hn h
  have htx := ht
  obtain ⟨t1, t2, -, -⟩ := ht
  by_cases hnan : IsNaN .f64 x
  · have hfin : ¬ IsFinite .f64 x := fun hf => hf hnan.1
    have hb : IsWord "nan" t := by
      rw [t1 hnan]; exact .cons (.inr rfl) (.cons (.inl rfl) (.cons (.inr rfl) .nil))
    obtain ⟨r, r1, r2⟩ := (read_word .f64 (.inr rfl) mem t hm ("", 1) (by simp [signs]) t rfl).2 hb
    exact ⟨r, r1, fun _ => r2, fun h => absurd hnan h, fun h => absurd h hfin, fun h => absurd h hfin⟩
  by_cases hfin : IsFinite .f64 x
  · obtain ⟨r, q, r1, r2, r3, r4⟩ := read_text .f64 (.inr rfl) _ x t mem htx hfin hm
    refine ⟨r, r1, fun h => absurd h hnan, fun _ h => absurd hfin h, fun _ => ⟨t, q, htx, r2, r3, r4 (by norm_num)⟩,
      fun _ hv hc => ?_⟩
    have := exact_cases .f64 (.inr rfl) 33 (by show (1 : ℚ) / 10 ^ 6 < 2 ^ 33 / 2 ^ 52; norm_num) _ (by norm_num) x hx hfin t mem
      htx hm hv hc
    rw [r1] at this
    exact Res.ok.inj this
  · have hb : ∃ sign ∈ signs, t = ascii sign.1 ++ ascii "inf" ∧ (SignBit .f64 x ↔ sign.1 = "-") := by
      rw [t2 hnan hfin]
      unfold signText
      split
      · rename_i hb; exact ⟨("-", -1), by simp [signs], rfl, by simp [hb]⟩
      · rename_i hb; exact ⟨("", 1), by simp [signs], rfl, by simp [hb]⟩
    obtain ⟨sign, hs, he, hsb⟩ := hb
    obtain ⟨r, r1, r2, r3, r4⟩ := (read_word .f64 (.inr rfl) mem t hm sign hs _ he).1
      (.inl (.cons (.inl rfl) (.cons (.inl rfl) (.cons (.inl rfl) .nil))))
    refine ⟨r, r1, fun h => absurd h hnan, fun _ _ => ?_, fun h => absurd h hfin, fun h => absurd h hfin⟩
    have hr : r < 2 ^ 64 := by
      have hp : parseMagnitude .f64 (ascii "inf") = some FloatFmt.f64.inf := by decide +kernel
      have h1 := read_eq .f64 hm
      rw [he, parseFloat_sign .f64 hs _ _ hp, r1] at h1
      rw [Res.ok.inj h1]
      exact (FloatFmt.f64.withSign_spec _ _ FloatFmt.f64.inf_lt').2.2.2.2.1
    have inf_abs : ∀ y, y < 2 ^ 64 → ¬ IsNaN .f64 y → ¬ IsFinite .f64 y → FloatFmt.f64.abs y = FloatFmt.f64.inf := by
      intro y hy h1 h2
      have e := FloatFmt.f64.eq_withSign y hy
      have sp := FloatFmt.f64.withSign_spec (FloatFmt.f64.neg y) _ (FloatFmt.f64.abs_lt y)
      rw [← e] at sp
      rw [not_isNaN_iff] at h1
      rw [isFinite_iff] at h2
      have h3 : FloatFmt.f64.is_infinite y = true := by
        cases h3 : FloatFmt.f64.is_infinite y with
        | true => rfl
        | false => exact absurd ⟨h1, h3⟩ h2
      rw [sp.2.2.2.1] at h3
      exact ((FloatFmt.f64.nan_iff _ (FloatFmt.f64.abs_lt y)).2).1 h3
    rw [FloatFmt.f64.eq_withSign r hr, FloatFmt.f64.eq_withSign x hx, inf_abs r hr r2 r3, inf_abs x hx hnan hfin]
    have : FloatFmt.f64.neg r = FloatFmt.f64.neg x := by
      rw [← hsb, signBit_iff, signBit_iff] at r4
      exact Bool.eq_iff_iff.2 r4
    rw [this]

/-- **C87**, REAL: STRING_TO_REAL reads back what REAL_TO_STRING wrote, bit for bit, for whole multiples of a millionth and
from 16 to `10^14`. -/
theorem C87_real_partial (x : Nat) (hx : x < 2 ^ 32) (hfin : IsFinite .f32 x) (n : Nat) (hn : 82 ≤ n) (mem : List Nat)
    (h : REAL_TO_STRING x (some (List.replicate n 0)) = .ok mem) (hv : floatValue .f32 x < 10 ^ 14)
    (hc : (∃ j : ℤ, floatValue .f32 x * 10 ^ 6 = j) ∨ 16 ≤ |floatValue .f32 x|) : STRING_TO_REAL (some mem) = .ok x := by
  obtain ⟨t, ht, hw⟩ := C83_real x hx
  rw [hw _ (by simp; omega)] at h
  exact exact_cases .f32 (.inl rfl) 4 (by show (1 : ℚ) / 10 ^ 6 < 2 ^ 4 / 2 ^ 23; norm_num) _ (by norm_num) x hx hfin t mem ht
    (written_holds ht hn h) hv (by
      rcases hc with hc | hc
      · exact .inl hc
      · exact .inr (by norm_num; exact hc))

/-- 16.1 as REAL comes back; 8.00001049041748 does not. -/
example : REAL_TO_STRING 0x4180CCCD (some (List.replicate 82 0)) = .ok (ascii "16.100000" ++ List.replicate 73 0) ∧
    STRING_TO_REAL (some (ascii "16.100000" ++ List.replicate 73 0)) = .ok 0x4180CCCD := by decide +kernel
example : REAL_TO_STRING 0x4100000B (some (List.replicate 82 0)) = .ok (ascii "8.000010" ++ List.replicate 74 0) ∧
    STRING_TO_REAL (some (ascii "8.000010" ++ List.replicate 74 0)) = .ok 0x4100000A := by decide +kernel

/-! ### C88: WSTRING_TO_LREAL and WSTRING_TO_REAL -/

/-- C88 is false: a WSTRING whose text takes more than 80 bytes in UTF-8 makes the conversion write behind its temporary
STRING, where STRING_TO_LREAL returns the number. -/
theorem C88_refuted :
    ¬ (∀ (memw mems : List Nat) (t : List Char), Holds memw (utf16 t) → Holds mems (utf8 t) →
        WSTRING_TO_LREAL (some memw) = STRING_TO_LREAL (some mems)) := by
  intro h
  have := h (List.replicate 81 0x30 ++ [0]) (List.replicate 81 0x30 ++ [0]) (List.replicate 81 '0')
    ⟨by decide, [], by decide⟩ ⟨by decide, [], by decide⟩
  revert this; decide +kernel

/-- What is true: for texts of at most 80 bytes the conversions from WSTRING agree with those from STRING; a longer text
overflows the temporary. -/
theorem C88_partial (memw mems : List Nat) (t : List Char) (hw : Holds memw (utf16 t)) (hs : Holds mems (utf8 t)) :
    ((utf8 t).length ≤ 80 →
      WSTRING_TO_LREAL (some memw) = STRING_TO_LREAL (some mems) ∧
      WSTRING_TO_REAL (some memw) = STRING_TO_REAL (some mems)) ∧
    (80 < (utf8 t).length → WSTRING_TO_LREAL (some memw) = .ub ∧ WSTRING_TO_REAL (some memw) = .ub) := by
  have hc : WSTRING_TO_STRING_EXT (some memw) (some tempString) = store tempString (utf8 t) := by
    rw [C55_wstring_to_string memw _ tempString _ hw (elements_text t), List.map_map]
    congr 2
    exact List.map_id'' (fun _ => rfl) t
  unfold WSTRING_TO_LREAL WSTRING_TO_REAL
  rw [hc]
  constructor
  · intro hl
    have hst : store tempString (utf8 t) = .ok (utf8 t ++ 0 :: tempString.drop ((utf8 t).length + 1)) := by
      unfold store tempString
      rw [if_pos (by rw [List.length_replicate]; omega)]
    have hh : Holds (utf8 t ++ 0 :: tempString.drop ((utf8 t).length + 1)) (utf8 t) := ⟨hs.1, _, rfl⟩
    rw [hst, Res.bind_ok, Res.bind_ok]
    unfold STRING_TO_LREAL STRING_TO_REAL
    rw [read_eq _ hh, read_eq _ hs, read_eq _ hh, read_eq _ hs]
    exact ⟨rfl, rfl⟩
  · intro hl
    have hst : store tempString (utf8 t) = .ub := by
      unfold store tempString
      rw [if_neg (by rw [List.length_replicate]; omega)]
    rw [hst]
    exact ⟨rfl, rfl⟩

example : WSTRING_TO_LREAL (some (ascii "-2.5e1" ++ [0])) = .ok 0xC039000000000000 := by decide +kernel

end Verif
