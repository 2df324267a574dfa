import Verif.Props.TimeText
/-
C56, TIME_TO_STRING over any earlier content of the destination.
-/
namespace Verif
open Spec

namespace Spec

/-- The components of a duration that are not 0, each with its unit, e.g. `1d`, `3h`, `5ms`. -/
def Dhms.pieces (c : Dhms) : List (List Nat) :=
  [component c.d "d", component c.h "h", component c.m "m", component c.s "s", component c.ms "ms", component c.us "us",
    component c.ns "ns"].filter fun piece => piece != []

end Spec

example : (⟨1, 3, 0, 0, 5, 0, 0⟩ : Dhms).pieces = [ascii "1d", ascii "3h", ascii "5ms"] := by decide

private theorem component_nil (n : Nat) (u : String) : component n u = [] ↔ n = 0 := by
  unfold component
  split
  · simp [*]
  · simp only [List.append_eq_nil_iff, decimal_ne_nil, false_and, *]

private theorem pieces_filter (l : List (Nat × String)) :
    (l.map fun x => component x.1 x.2).filter (fun piece => piece != []) =
      ((l.map fun x => (x.1, ascii x.2)).filter fun it => it.1 != 0).map fun it => decimal it.1 ++ it.2 := by
  induction l with
  | nil => rfl
  | cons x l ih =>
    rw [List.map_cons, List.map_cons, List.filter_cons, List.filter_cons, ih]
    by_cases h : x.1 = 0
    · simp [show component 0 x.2 = [] from rfl, h]
    · have : component x.1 x.2 ≠ [] := fun e => h ((component_nil _ _).1 e)
      simp only [bne_iff_ne, ne_eq, this, not_false_eq_true, if_true, h, List.map_cons]
      simp [component, h]

theorem pieces_eq (c : Dhms) : c.pieces = ((parts c).filter fun it => it.1 != 0).map fun it => decimal it.1 ++ it.2 := by
  have e : (parts c) = [(c.d, "d"), (c.h, "h"), (c.m, "m"), (c.s, "s"), (c.ms, "ms"), (c.us, "us"), (c.ns, "ns")].map
      fun x => (x.1, ascii x.2) := by
    simp only [parts, List.map_cons, List.map_nil, show ascii "d" = [100] by decide, show ascii "h" = [104] by decide,
      show ascii "m" = [109] by decide, show ascii "s" = [115] by decide, show ascii "ms" = [109, 115] by decide,
      show ascii "us" = [117, 115] by decide, show ascii "ns" = [110, 115] by decide]
  rw [e, ← pieces_filter]
  rfl

/-- The pieces one after the other are the text of the duration. -/
theorem pieces_text (c : Dhms) : c.pieces.flatten = c.text := by
  rw [pieces_eq, text_eq]; rfl

/-- The positions behind the pieces. -/
private def ends : Nat → List (Nat × List Nat) → List Nat
  | _, [] => []
  | off, it :: l => (off + (decimal it.1 ++ it.2).length) :: ends (off + (decimal it.1 ++ it.2).length) l

private theorem ends_iff (l : List (Nat × List Nat)) (off : Nat) (P : Nat → Prop) :
    (∀ b ∈ ends off l, P b) ↔
      ∀ i, 0 < i → i ≤ l.length → P (off + (((l.map fun it => decimal it.1 ++ it.2).take i).flatten).length) := by
  induction l generalizing off with
  | nil => simp [ends]; intros; omega
  | cons it l ih =>
    simp only [ends, List.mem_cons, forall_eq_or_imp, ih]
    constructor
    · rintro ⟨h0, h⟩ i hi hl
      cases i with
      | zero => omega
      | succ i =>
        rw [List.map_cons, List.take_succ_cons, List.flatten_cons, List.length_append, ← Nat.add_assoc]
        by_cases hz : i = 0
        · subst hz; simpa using h0
        · exact h i (by omega) (by simpa using hl)
    · intro h
      refine ⟨by simpa using h 1 (by omega) (by simp), fun i hi hl => ?_⟩
      have := h (i + 1) (by omega) (by simpa using hl)
      rwa [List.map_cons, List.take_succ_cons, List.flatten_cons, List.length_append, ← Nat.add_assoc] at this

theorem tok_cons (it : Nat × List Nat) (l : List (Nat × List Nat)) : tokText (it :: l) = (decimal it.1 ++ it.2) ++ tokText l := by
  unfold tokText; rw [List.flatMap_cons]

theorem piece_ne_zero {it : Nat × List Nat} (h : IsUnit it.2) : ∀ b ∈ decimal it.1 ++ it.2, b ≠ 0 := by
  intro b hb
  rcases List.mem_append.1 hb with hb | hb
  · have := decimal_digit _ b hb; omega
  · exact unit_ne_zero h b hb

/-- One step of the loop. -/
private theorem step {it : Nat × List Nat} {l : List (Nat × List Nat)} {w room out text m : List Nat} (hu : IsUnit it.2)
    (ht : text = decimal it.1 ++ it.2) (hm : m = text ++ room.drop text.length) (h : timeLoop (it :: l) w room = .ok out) :
    ∃ idx, text.length ≤ idx ∧ idx < m.length ∧ (∀ b ∈ m.take idx, b ≠ 0) ∧ m[idx]? = some 0 ∧
      timeLoop l (w ++ m.take idx) (m.drop idx) = .ok out := by
  rw [timeLoop, fmtNat_eq, ← ht] at h
  have hz := piece_ne_zero hu
  rw [← ht] at hz
  obtain ⟨room', hr, h⟩ := Res.bind_eq_ok.1 h
  have hr' : room' = m := by
    unfold writeBuf at hr
    dsimp only at hr
    split at hr
    · cases hr
    · split at hr
      · cases hr
      · rw [hm]; exact (Res.ok.inj hr).symm
  subst hr'
  obtain ⟨idx, hi, h⟩ := Res.bind_eq_ok.1 h
  have hi : (room'.take DEFAULT_STRING_LEN).findIdx? (· == 0) = some idx := by
    cases hf : (room'.take DEFAULT_STRING_LEN).findIdx? (· == 0) with
    | none => rw [hf] at hi; cases hi
    | some k => rw [hf] at hi; rw [Res.ok.inj hi]
  obtain ⟨hlt, h0, hj⟩ := List.findIdx?_eq_some_iff_getElem.1 hi
  have hlen : idx < room'.length := by rw [List.length_take] at hlt; omega
  have get : ∀ j (hj : j < (room'.take DEFAULT_STRING_LEN).length), (room'.take DEFAULT_STRING_LEN)[j] = room'[j]'(by
      rw [List.length_take] at hj; omega) := fun j hj => List.getElem_take ..
  have z : room'[idx]? = some 0 := by
    rw [get] at h0
    rw [List.getElem?_eq_getElem hlen]; simpa using h0
  refine ⟨idx, ?_, hlen, ?_, z, h⟩
  · by_contra hc
    have : room'[idx]? = text[idx]? := by rw [hm]; exact List.getElem?_append_left (by omega)
    rw [this, List.getElem?_eq_getElem (by omega)] at z
    exact hz _ (List.getElem_mem _) (Option.some.inj z)
  · intro b hb
    obtain ⟨j, hjl, rfl⟩ := List.mem_iff_getElem.1 hb
    have hj' : j < idx := by rw [List.length_take] at hjl; omega
    have := hj j hj'
    rw [get] at this
    rw [List.getElem_take]
    simpa using this

/-- Everything up to the end of the last piece is not zero. -/
private theorem loop_long (l : List (Nat × List Nat)) (hl : ∀ it ∈ l, IsUnit it.2) (w room out : List Nat) (hw : ∀ b ∈ w, b ≠ 0)
    (h : timeLoop l w room = .ok out) : ∀ i < w.length + (tokText l).length, out[i]? ≠ some 0 := by
  induction l generalizing w room with
  | nil =>
    intro i hi e
    rw [timeLoop] at h
    rw [← Res.ok.inj h, List.getElem?_append_left (by simpa [tokText] using hi)] at e
    exact hw 0 (List.mem_of_getElem? e) rfl
  | cons it l ih =>
    obtain ⟨idx, h1, h2, h3, -, h5⟩ := step (hl it (by simp)) rfl rfl h
    rw [tok_cons, List.length_append]
    generalize hm : decimal it.1 ++ it.2 ++ List.drop (decimal it.1 ++ it.2).length room = m at *
    intro i hi
    refine ih (fun it hit => hl it (by simp [hit])) (w ++ m.take idx) _ ?_ h5 i ?_
    · intro b hb
      rcases List.mem_append.1 hb with hb | hb
      · exact hw b hb
      · exact h3 b hb
    · rw [List.length_append, List.length_take]; omega

private theorem ends_shift (l : List (Nat × List Nat)) (off : Nat) : ends off l = (ends 0 l).map (off + ·) := by
  induction l generalizing off with
  | nil => rfl
  | cons it l ih =>
    rw [ends, ends, ih, ih (0 + _), List.map_cons, List.map_map]
    congr 1
    · omega
    · apply List.map_congr_left; intro x _; simp only [Function.comp]; omega

/-- Either the pieces follow each other, or the result is longer than the text. -/
private theorem loop_exact (l : List (Nat × List Nat)) (hne : l ≠ []) (hl : ∀ it ∈ l, IsUnit it.2) (w room out : List Nat) (hw : ∀ b ∈ w, b ≠ 0)
    (h : timeLoop l w room = .ok out) :
    ((∀ b ∈ ends 0 l, room[b]? = some 0) ∧ out = w ++ tokText l ++ room.drop (tokText l).length) ∨
    ((∃ b ∈ ends 0 l, room[b]? ≠ some 0) ∧ out[w.length + (tokText l).length]? ≠ some 0) := by
  induction l generalizing w room with
  | nil => exact absurd rfl hne
  | cons it l ih =>
    obtain ⟨idx, h1, h2, h3, h4, h5⟩ := step (hl it (by simp)) rfl rfl h
    have hw' : ∀ b ∈ w ++ ((decimal it.1 ++ it.2) ++ room.drop (decimal it.1 ++ it.2).length).take idx, b ≠ 0 := by
      intro b hb
      rcases List.mem_append.1 hb with hb | hb
      · exact hw b hb
      · exact h3 b hb
    rw [tok_cons, List.length_append]
    simp only [ends, List.mem_cons, forall_eq_or_imp, exists_eq_or_imp, Nat.zero_add]
    generalize decimal it.1 ++ it.2 = text at *
    by_cases hi : idx = text.length
    · subst hi
      rw [List.take_left] at h5 hw'
      rw [List.drop_left] at h5
      rw [List.getElem?_append_right (Nat.le_refl _), Nat.sub_self, List.getElem?_drop, Nat.add_zero] at h4
      by_cases hn : l = []
      · subst hn
        rw [timeLoop] at h5
        refine .inl ⟨⟨h4, by simp [ends]⟩, ?_⟩
        rw [← Res.ok.inj h5]
        simp [tokText]
      · rw [ends_shift l text.length]
        have := ih hn (fun it hit => hl it (by simp [hit])) (w ++ text) (room.drop text.length) hw' h5
        rcases this with ⟨a, b⟩ | ⟨⟨b, hb, hb'⟩, a⟩
        · refine .inl ⟨⟨h4, ?_⟩, ?_⟩
          · intro b hb
            obtain ⟨b', hb', rfl⟩ := List.mem_map.1 hb
            have := a b' hb'
            rwa [List.getElem?_drop] at this
          · rw [b, List.drop_drop]; simp only [List.append_assoc]
        · refine .inr ⟨.inr ⟨text.length + b, List.mem_map_of_mem hb, ?_⟩, ?_⟩
          · rwa [List.getElem?_drop] at hb'
          · rwa [List.length_append, Nat.add_assoc] at a
    · refine .inr ⟨.inl ?_, ?_⟩
      · intro e
        refine h3 0 ?_ rfl
        refine List.mem_iff_getElem?.2 ⟨text.length, ?_⟩
        rw [List.getElem?_take_of_lt (by omega), List.getElem?_append_right (Nat.le_refl _), Nat.sub_self, List.getElem?_drop, Nat.add_zero]
        exact e
      · refine loop_long l (fun it hit => hl it (by simp [hit])) _ _ out hw' h5 _ ?_
        rw [List.length_append, List.length_take]; omega

/-- The loop succeeds if the positions behind the pieces are zero and there is room. -/
private theorem loop_ok (l : List (Nat × List Nat)) (hl : ∀ it ∈ l, IsUnit it.2) (w room : List Nat) (hk : (tokText l).length < 81)
    (hroom : (tokText l).length + 81 ≤ room.length) (hz : ∀ b ∈ ends 0 l, room[b]? = some 0) : ∃ out, timeLoop l w room = .ok out := by
  induction l generalizing w room with
  | nil => exact ⟨_, rfl⟩
  | cons it l ih =>
    rw [tok_cons, List.length_append] at hk hroom
    simp only [ends, List.mem_cons, forall_eq_or_imp, Nat.zero_add] at hz
    rw [timeLoop, fmtNat_eq]
    have hp := piece_ne_zero (hl it (by simp))
    generalize decimal it.1 ++ it.2 = text at *
    obtain ⟨r, hr⟩ : ∃ r, room.drop text.length = 0 :: r := by
      have hlt : text.length < room.length := by omega
      refine ⟨room.drop (text.length + 1), ?_⟩
      rw [List.drop_eq_getElem_cons hlt]
      have := hz.1
      rw [List.getElem?_eq_getElem hlt] at this
      rw [Option.some.inj this]
    have hw : writeBuf (some room) text = .ok (text ++ 0 :: r) := by
      unfold writeBuf DEFAULT_STRING_LEN
      dsimp only
      rw [if_neg (by omega), if_neg (by omega), hr]
    rw [hw, Res.bind_ok, show DEFAULT_STRING_LEN = 81 from rfl, findIdx_zero hp r (by omega)]
    show ∃ out, timeLoop l (w ++ (text ++ 0 :: r).take text.length) ((text ++ 0 :: r).drop text.length) = .ok out
    rw [List.take_left, List.drop_left, ← hr]
    refine ih (fun it hit => hl it (by simp [hit])) _ _ (by omega) (by rw [List.length_drop]; omega) ?_
    intro b hb
    rw [List.getElem?_drop]
    exact hz.2 _ (by rw [ends_shift]; exact List.mem_map_of_mem hb)

theorem pieces_of {t : Int} {c : Dhms} (h : ∃ mem, TIME_TO_STRING_EXT t (List.replicate 117 0) = .ok mem ∧ Holds mem c.text) :
    parts c = parse_timestamp t := by
  obtain ⟨mem, h1, h2⟩ := h
  have hl := partsOf_length t
  have := time_to_string_zero t 117 [] (by omega) (by simp only [List.length_nil]; omega)
  rw [List.append_nil, h1] at this
  have hm := Res.ok.inj this
  have h3 : Holds mem (partsOf t).text := by
    rw [hm]
    refine ⟨text_ne_zero _, List.replicate (117 - (partsOf t).text.length - 1) 0, ?_⟩
    rw [List.append_nil, ← List.replicate_succ, show 117 - (partsOf t).text.length - 1 + 1 = 117 - (partsOf t).text.length by omega]
  rw [text_injective (holds_unique h2 h3), parse_timestamp_eq]

/-- **C56**, TIME_TO_STRING over any earlier content.  Let `c` be the decomposition whose text the call writes into zeroed memory (C61, C62 say which
this is).  The destination holds exactly that text iff the byte behind each of the pieces was zero before: a piece in front of another byte is
followed by the rest of the earlier content, and only then by the next piece. -/
theorem C56_time_exact_partial (t : Int) (c : Dhms) (h : ∃ mem, TIME_TO_STRING_EXT t (List.replicate 117 0) = .ok mem ∧ Holds mem c.text)
    (dest out : List Nat) (r : TIME_TO_STRING_EXT t dest = .ok out) :
    Holds out c.text ↔
      ∀ i ≤ c.pieces.length, (0 < i ∨ c.pieces = []) → dest[((c.pieces.take i).flatten).length]? = some 0 := by
  have hp := pieces_of h
  unfold TIME_TO_STRING_EXT at r
  rw [← hp] at r
  have hu : ∀ it ∈ (parts c).filter (fun it => it.1 != 0), IsUnit it.2 := fun it hit => parts_unit c it (List.mem_filter.1 hit).1
  have hc := text_ne_zero c
  have hf := pieces_eq c
  rw [text_eq] at hc ⊢
  rw [hf]
  generalize (parts c).filter (fun it => it.1 != 0) = l at *
  have hholds : ∀ m : List Nat, Holds m (tokText l) → m[(tokText l).length]? = some 0 := by
    rintro m ⟨-, tail, rfl⟩; simp
  by_cases hne : l = []
  · subst hne
    rw [timeLoop] at r
    rw [← Res.ok.inj r]
    have e : (∀ i ≤ ([] : List (List Nat)).length, (0 < i ∨ True) → dest[((([] : List (List Nat)).take i).flatten).length]? = some 0) ↔
        dest[0]? = some 0 := by simp
    simp only [List.map_nil, List.nil_append] at *
    rw [e]
    constructor
    · intro hh; exact hholds _ hh
    · intro hh
      refine ⟨by simp [tokText], dest.drop 1, ?_⟩
      cases dest with
      | nil => simp at hh
      | cons a d => simp at hh; subst hh; rfl
  · have e : (∀ i ≤ (l.map fun it => decimal it.1 ++ it.2).length, (0 < i ∨ (l.map fun it => decimal it.1 ++ it.2) = []) →
        dest[(((l.map fun it => decimal it.1 ++ it.2).take i).flatten).length]? = some 0) ↔ ∀ b ∈ ends 0 l, dest[b]? = some 0 := by
      rw [ends_iff l 0 fun b => dest[b]? = some 0]
      simp only [List.length_map, List.map_eq_nil_iff, hne, or_false, Nat.zero_add]
      exact ⟨fun h i a b => h i b a, fun h i a b => h i b a⟩
    rw [e]
    rcases loop_exact l hne hu [] dest out (by simp) r with ⟨a, b⟩ | ⟨⟨b, hb, hb'⟩, a⟩
    · refine ⟨fun _ => a, fun _ => ⟨hc, ?_⟩⟩
      have hlast : dest[(tokText l).length]? = some 0 := by
        have := (ends_iff l 0 fun b => dest[b]? = some 0).1 a l.length (List.length_pos_iff.2 hne) (Nat.le_refl _)
        rwa [Nat.zero_add, List.take_of_length_le (by simp), show (l.map fun it => decimal it.1 ++ it.2).flatten = tokText l from rfl] at this
      obtain ⟨hlt, h0⟩ := List.getElem?_eq_some_iff.1 hlast
      refine ⟨dest.drop ((tokText l).length + 1), ?_⟩
      rw [b, List.nil_append, List.drop_eq_getElem_cons hlt, h0]
    · rw [List.length_nil, Nat.zero_add] at a
      exact ⟨fun hh => absurd (hholds out hh) a, fun hh => absurd (hh b hb) hb'⟩

/-- In that case the call succeeds, if there are 117 bytes. -/
theorem C56_time_success_partial (t : Int) (c : Dhms) (h : ∃ mem, TIME_TO_STRING_EXT t (List.replicate 117 0) = .ok mem ∧ Holds mem c.text)
    (dest : List Nat) (hd : 117 ≤ dest.length)
    (hz : ∀ i ≤ c.pieces.length, (0 < i ∨ c.pieces = []) → dest[((c.pieces.take i).flatten).length]? = some 0) :
    ∃ out, TIME_TO_STRING_EXT t dest = .ok out ∧ Holds out c.text := by
  have hp := pieces_of h
  have hlen : c.text.length ≤ 36 := by
    have e := parse_timestamp_eq t
    rw [← hp] at e
    rw [text_eq, e, ← text_eq]; exact partsOf_length t
  have hu : ∀ it ∈ (parts c).filter (fun it => it.1 != 0), IsUnit it.2 := fun it hit => parts_unit c it (List.mem_filter.1 hit).1
  obtain ⟨out, ho⟩ := loop_ok ((parts c).filter fun it => it.1 != 0) hu [] dest (by rw [← text_eq]; omega) (by rw [← text_eq]; omega) (by
    rw [ends_iff _ 0 fun b => dest[b]? = some 0]
    intro i h1 h2
    have := hz i (by rw [pieces_eq, List.length_map]; exact h2) (.inl h1)
    rwa [pieces_eq, ← Nat.zero_add (List.length _)] at this)
  have ho' : TIME_TO_STRING_EXT t dest = .ok out := by unfold TIME_TO_STRING_EXT; rw [← hp]; exact ho
  exact ⟨out, ho', (C56_time_exact_partial t c h dest out ho').2 hz⟩

/-- T#1h5s over '42' in memory that is zero behind: the byte behind `1h` and the one behind `1h5s` are zero, the result is right.  Over '1h5s' it is
'1h5s5s'. -/
example : TIME_TO_STRING_EXT 3605000000000 ([52, 50] ++ List.replicate 115 0) = .ok (ascii "1h5s" ++ List.replicate 113 0) ∧
    TIME_TO_STRING_EXT 3605000000000 (ascii "1h5s" ++ List.replicate 117 0) = .ok (ascii "1h5s5s" ++ List.replicate 115 0) := by decide +kernel
example : (⟨0, 1, 0, 5, 0, 0, 0⟩ : Dhms).pieces = [ascii "1h", ascii "5s"] ∧
    TIME_TO_STRING_EXT 3605000000000 (List.replicate 117 0) = .ok ((⟨0, 1, 0, 5, 0, 0, 0⟩ : Dhms).text ++ List.replicate 113 0) := by decide +kernel

end Verif
