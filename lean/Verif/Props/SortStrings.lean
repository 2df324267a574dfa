import Verif.Props.StringCompare
import Mathlib.Data.List.Sort
import Mathlib.Data.List.Basic
/-
C164: sorting an array of strings with GT and searching it with LT and EQ.
-/
namespace Verif
open Spec

/-- `GT(a, b)` of two strings (src/string_functions.rs:771-791, 801-815). -/
def gt2 (a b : List Nat) : Res Bool := GT 2 (some [some a, some b])
/-- `LT(a, b)` of two strings (src/string_functions.rs:771-791, 897-911). -/
def lt2 (a b : List Nat) : Res Bool := LT 2 (some [some a, some b])
/-- `EQ(a, b)` of two strings (src/string_functions.rs:771-791, 849-863). -/
def eq2 (a b : List Nat) : Res Bool := EQ 2 (some [some a, some b])

/-- `FOR i := 0 TO n - 2 DO IF GT(a[i], a[i + 1]) THEN (* exchange a[i] and a[i + 1] *) END_IF END_FOR` -/
def bubblePass : List (List Nat) → Res (List (List Nat))
  | a :: b :: l => do
    if ← gt2 a b then
      let rest ← bubblePass (a :: l)
      pure (b :: rest)
    else
      let rest ← bubblePass (b :: l)
      pure (a :: rest)
  | l => pure l
termination_by l => l.length

/-- The loop above `k` times. -/
def bubblePasses : Nat → List (List Nat) → Res (List (List Nat))
  | 0, l => pure l
  | k + 1, l => do
    let l ← bubblePass l
    bubblePasses k l

/-- `WHILE lo < hi DO mid := (lo + hi) / 2; count := count + 1; IF LT(a[mid], x) THEN lo := mid + 1; ELSE hi := mid; END_IF END_WHILE` with `lo` and the number of comparisons as its result. -/
def bisect (a : List (List Nat)) (x : List Nat) (lo hi count : Nat) : Res (Nat × Nat) :=
  if lo < hi then
    let mid := (lo + hi) / 2
    match a[mid]? with
    | none => .ub
    | some s => do
      if ← lt2 s x then bisect a x (mid + 1) hi (count + 1) else bisect a x lo mid (count + 1)
  else pure (lo, count)
termination_by hi - lo

/-- `lo := 0; hi := n; (* the loop above *) found := lo < n AND_THEN EQ(a[lo], x);` with `found`, `lo` and the number of calls of LT as its result. -/
def search (a : List (List Nat)) (x : List Nat) : Res (Bool × Nat × Nat) := do
  let (lo, count) ← bisect a x 0 a.length 0
  match a[lo]? with
  | none => pure (false, lo, count)
  | some s => do
    let found ← eq2 s x
    pure (found, lo, count)

namespace Spec

/-- Each of the variables holds the string in its place. -/
def HoldEach (a : List (List Nat)) (ss : List (List Nat)) : Prop := List.Forall₂ Holds a ss

end Spec

private theorem gt2_eq {a b s t : List Nat} (ha : Holds a s) (hb : Holds b t) : gt2 a b = .ok (decide (t < s)) := by
  obtain ⟨g, hg, e⟩ := C52_gt [some a, some b] [] [s, t] ⟨⟨a, rfl, ha⟩, ⟨b, rfl, hb⟩, trivial⟩ (by simp)
  simp only [List.pairwise_cons, List.mem_singleton, forall_eq, List.not_mem_nil, false_imp_iff, implies_true, List.Pairwise.nil, and_true] at e
  unfold gt2
  rw [show GT 2 (some [some a, some b]) = .ok g from hg, Bool.eq_iff_iff.2 (e.trans decide_eq_true_iff.symm)]

private theorem lt2_eq {a b s t : List Nat} (ha : Holds a s) (hb : Holds b t) : lt2 a b = .ok (decide (s < t)) := by
  obtain ⟨g, hg, e⟩ := C52_lt [some a, some b] [] [s, t] ⟨⟨a, rfl, ha⟩, ⟨b, rfl, hb⟩, trivial⟩ (by simp)
  simp only [List.pairwise_cons, List.mem_singleton, forall_eq, List.not_mem_nil, false_imp_iff, implies_true, List.Pairwise.nil, and_true] at e
  unfold lt2
  rw [show LT 2 (some [some a, some b]) = .ok g from hg, Bool.eq_iff_iff.2 (e.trans decide_eq_true_iff.symm)]

private theorem eq2_eq {a b s t : List Nat} (ha : Holds a s) (hb : Holds b t) : eq2 a b = .ok (decide (s = t)) := by
  obtain ⟨g, hg, e⟩ := C52_eq [some a, some b] [] [s, t] ⟨⟨a, rfl, ha⟩, ⟨b, rfl, hb⟩, trivial⟩ (by simp)
  simp only [List.pairwise_cons, List.mem_singleton, forall_eq, List.not_mem_nil, false_imp_iff, implies_true, List.Pairwise.nil, and_true] at e
  unfold eq2
  rw [show EQ 2 (some [some a, some b]) = .ok g from hg, Bool.eq_iff_iff.2 (e.trans decide_eq_true_iff.symm)]

/-! ### The passes, with the texts of the variables -/

/-- A variable and what it holds. -/
private abbrev Entry := List Nat × List Nat

private def pass : List Entry → List Entry
  | a :: b :: l => if b.2 < a.2 then b :: pass (a :: l) else a :: pass (b :: l)
  | l => l
termination_by l => l.length

private theorem pass_eq : ∀ (l : List Entry), (∀ e ∈ l, Holds e.1 e.2) → bubblePass (l.map (·.1)) = .ok ((pass l).map (·.1))
  | [], _ => by rw [pass, List.map_nil, bubblePass] <;> simp
  | [a], _ => by rw [pass] <;> simp [bubblePass]
  | a :: b :: l, h => by
    have ha := h a (by simp)
    have hb := h b (by simp)
    rw [List.map_cons, List.map_cons, bubblePass, gt2_eq ha hb, Res.bind_ok, pass]
    have h1 := pass_eq (a :: l) fun e he => h e (by rcases List.mem_cons.1 he with rfl | he <;> simp [*])
    have h2 := pass_eq (b :: l) fun e he => h e (by rcases List.mem_cons.1 he with rfl | he <;> simp [*])
    rw [List.map_cons] at h1 h2
    by_cases hlt : b.2 < a.2
    · simp [hlt, h1]
    · simp [hlt, h2]
termination_by l => l.length

private theorem pass_perm : ∀ (l : List Entry), (pass l).Perm l
  | [] => by rw [pass]; simp
  | [a] => by rw [pass]; simp
  | a :: b :: l => by
    rw [pass]
    split
    · exact ((pass_perm (a :: l)).cons b).trans (.swap _ _ _)
    · exact (pass_perm (b :: l)).cons a
termination_by l => l.length

private abbrev Le (a b : Entry) : Prop := a.2 ≤ b.2

/-- A pass leaves a sorted end as it is and puts the largest of the others in front of it. -/
private theorem pass_split : ∀ (f b : List Entry), b.Pairwise Le → (∀ x ∈ f, ∀ y ∈ b, Le x y) → f ≠ [] →
    ∃ f' m, pass (f ++ b) = f' ++ m :: b ∧ (f' ++ [m]).Perm f ∧ ∀ x ∈ f', Le x m
  | [], _, _, _, h => absurd rfl h
  | [a], [], _, _, _ => ⟨[], a, by rw [List.append_nil, pass] <;> simp, by simp, by simp⟩
  | [a], y :: b, hb, hf, _ => by
    have hay : ¬ y.2 < a.2 := List.not_lt.2 (hf a (by simp) y (by simp))
    refine ⟨[], a, ?_, by simp, by simp⟩
    rw [List.singleton_append, pass, if_neg hay]
    obtain ⟨f', m, e, hp, _⟩ := pass_split [y] b (List.pairwise_cons.1 hb).2 (fun x hx z hz => by cases List.mem_singleton.1 hx; exact (List.pairwise_cons.1 hb).1 z hz) (by simp)
    rw [List.singleton_append] at e
    have hl := hp.length_eq
    have : f' = [] := List.length_eq_zero_iff.1 (by simpa using hl)
    subst this
    have : m = y := by simpa using hp.mem_iff (a := m)
    subst this
    rw [e]; rfl
  | a :: c :: f, b, hb, hf, _ => by
    rw [List.cons_append, List.cons_append, pass]
    split
    · rename_i hlt
      obtain ⟨f', m, e, hp, hm⟩ := pass_split (a :: f) b hb (fun x hx y hy => hf x (by rcases List.mem_cons.1 hx with rfl | hx <;> simp [*]) y hy) (by simp)
      rw [List.cons_append] at e
      refine ⟨c :: f', m, by rw [e]; rfl, ?_, ?_⟩
      · exact (hp.cons c).trans (.swap _ _ _)
      · intro x hx
        rcases List.mem_cons.1 hx with rfl | hx
        · have : a ∈ f' ++ [m] := hp.mem_iff.2 (by simp)
          rcases List.mem_append.1 this with h | h
          · exact List.le_trans (List.le_of_lt hlt) (hm a h)
          · cases List.mem_singleton.1 h; exact List.le_of_lt hlt
        · exact hm x hx
    · rename_i hlt
      obtain ⟨f', m, e, hp, hm⟩ := pass_split (c :: f) b hb (fun x hx y hy => hf x (by rcases List.mem_cons.1 hx with rfl | hx <;> simp [*]) y hy) (by simp)
      rw [List.cons_append] at e
      refine ⟨a :: f', m, by rw [e]; rfl, hp.cons a, ?_⟩
      intro x hx
      rcases List.mem_cons.1 hx with rfl | hx
      · have : c ∈ f' ++ [m] := hp.mem_iff.2 (by simp)
        rcases List.mem_append.1 this with h | h
        · exact List.le_trans (List.not_lt.1 hlt) (hm c h)
        · cases List.mem_singleton.1 h; exact List.not_lt.1 hlt
      · exact hm x hx
termination_by f b => f.length + b.length

private theorem pass_filter (s : List Nat) : ∀ (l : List Entry), (pass l).filter (fun e => e.2 = s) = l.filter fun e => e.2 = s
  | [] => by rw [pass]; simp
  | [a] => by rw [pass]; simp
  | a :: b :: l => by
    rw [pass]
    split
    · rename_i hlt
      rw [List.filter_cons, pass_filter s (a :: l)]
      by_cases ha : a.2 = s
      · have hb : b.2 ≠ s := fun hb => by rw [ha, hb] at hlt; exact List.lt_irrefl _ hlt
        simp [ha, hb]
      · by_cases hb : b.2 = s <;> simp [ha, hb]
    · rw [List.filter_cons, pass_filter s (b :: l)]
      simp [List.filter_cons]
termination_by l => l.length

private theorem passes : ∀ (k : Nat) (f b : List Entry), (∀ e ∈ f ++ b, Holds e.1 e.2) → b.Pairwise Le → (∀ x ∈ f, ∀ y ∈ b, Le x y) → k ≤ f.length →
    ∃ f' b' : List Entry, bubblePasses k ((f ++ b).map (·.1)) = .ok ((f' ++ b').map (·.1)) ∧ f'.length + k = f.length ∧ b'.Pairwise Le ∧ (∀ x ∈ f', ∀ y ∈ b', Le x y) ∧
      (f' ++ b').Perm (f ++ b) ∧ ∀ s, (f' ++ b').filter (fun e => e.2 = s) = (f ++ b).filter fun e => e.2 = s
  | 0, f, b, _, hb, hf, _ => ⟨f, b, rfl, rfl, hb, hf, .refl _, fun _ => rfl⟩
  | k + 1, f, b, h, hb, hf, hk => by
    obtain ⟨f1, m, e, hp, hm⟩ := pass_split f b hb hf (by rintro rfl; simp at hk)
    have hlen := hp.length_eq
    rw [List.length_append, List.length_singleton] at hlen
    have hp' : (f1 ++ m :: b).Perm (f ++ b) := e ▸ pass_perm (f ++ b)
    have sub : ∀ x ∈ f1 ++ [m], x ∈ f := fun x hx => hp.mem_iff.1 hx
    obtain ⟨f', b', e', h1, h2, h3, h4, h5⟩ := passes k f1 (m :: b) (fun x hx => h x (hp'.mem_iff.1 hx))
      (List.pairwise_cons.2 ⟨fun y hy => hf m (sub m (by simp)) y hy, hb⟩)
      (fun x hx y hy => by
        rcases List.mem_cons.1 hy with rfl | hy
        · exact hm x hx
        · exact hf x (sub x (List.mem_append_left _ hx)) y hy) (by omega)
    refine ⟨f', b', ?_, by omega, h2, h3, h4.trans hp', fun s => ?_⟩
    · rw [bubblePasses, pass_eq _ h, Res.bind_ok, e, e']
    · rw [h5, ← e, pass_filter]

/-- **C164.** Sorting never aborts.  Afterwards the array contains the same variables, in the order of their strings, and those with the same string in the order in which they were. -/
theorem C164_sort (a ss : List (List Nat)) (h : HoldEach a ss) :
    ∃ a' ss', bubblePasses (a.length - 1) a = .ok a' ∧ HoldEach a' ss' ∧ (a'.zip ss').Perm (a.zip ss) ∧ ss'.Pairwise (· ≤ ·) ∧
      ∀ s, (a'.zip ss').filter (fun e => e.2 = s) = (a.zip ss).filter fun e => e.2 = s := by
  have hlen : a.length = ss.length := h.length_eq
  have h1 : (a.zip ss).map (·.1) = a := List.map_fst_zip (by omega)
  have hh : ∀ e ∈ a.zip ss, Holds e.1 e.2 := fun e he => (List.forall₂_iff_zip.1 h).2 he
  obtain ⟨f, b, e, hf, hb, hfb, hp, hs⟩ := passes (a.length - 1) (a.zip ss) [] (by simpa using hh) .nil (by simp) (by simp; omega)
  rw [List.append_nil] at e hp hs
  rw [h1] at e
  have hz : ((f ++ b).map (·.1)).zip ((f ++ b).map (·.2)) = f ++ b := by
    have := List.zip_unzip (f ++ b)
    rwa [List.unzip_eq_map] at this
  refine ⟨_, (f ++ b).map (·.2), e, ?_, by rw [hz]; exact hp, ?_, fun s => by rw [hz]; exact hs s⟩
  · rw [HoldEach, List.forall₂_map_left_iff, List.forall₂_map_right_iff, List.forall₂_same]
    exact fun x hx => hh x (hp.mem_iff.1 hx)
  · rw [List.pairwise_map, List.pairwise_append]
    refine ⟨?_, hb, hfb⟩
    rw [List.length_zip, ← hlen, Nat.min_self] at hf
    match f, hf with
    | [], _ => exact .nil
    | [x], _ => exact List.pairwise_singleton _ _
    | x :: y :: f, hf => simp only [List.length_cons] at hf; omega

private theorem perm_map {α β : Type} (f : α → β) {l r : List β} (h : l.Perm r) : ∀ ts : List α, r = ts.map f → ∃ ts' : List α, ts'.Perm ts ∧ l = ts'.map f := by
  induction h with
  | nil => exact fun ts e => ⟨ts, .refl _, e⟩
  | cons x _ ih =>
    intro ts e
    cases ts with
    | nil => cases e
    | cons t ts =>
      rw [List.map_cons, List.cons.injEq] at e
      obtain ⟨ts', hp, rfl⟩ := ih ts e.2
      exact ⟨t :: ts', hp.cons t, by rw [List.map_cons, e.1]⟩
  | swap x y l =>
    intro ts e
    match ts, e with
    | t :: u :: ts, e =>
      simp only [List.map_cons, List.cons.injEq] at e
      exact ⟨u :: t :: ts, .swap _ _ _, by simp [e]⟩
  | trans _ _ ih1 ih2 =>
    intro ts e
    obtain ⟨ts2, hp2, e2⟩ := ih2 ts e
    obtain ⟨ts1, hp1, e1⟩ := ih1 ts2 e2
    exact ⟨ts1, hp1.trans hp2, e1⟩

/-- **C164** for STRINGs: the order is that of the code points. -/
theorem C164_sort_text (a : List (List Nat)) (ts : List (List Char)) (h : HoldEach a (ts.map utf8)) :
    ∃ (a' : List (List Nat)) (ts' : List (List Char)), bubblePasses (a.length - 1) a = .ok a' ∧ HoldEach a' (ts'.map utf8) ∧ ts'.Perm ts ∧ ts'.Pairwise fun s t => s.map Char.toNat ≤ t.map Char.toNat := by
  obtain ⟨a', ss', e, h', hp, hs, _⟩ := C164_sort a _ h
  have hl : a.length = (ts.map utf8).length := h.length_eq
  have hl' : a'.length = ss'.length := h'.length_eq
  have hp2 : ss'.Perm (ts.map utf8) := by
    have := hp.map (·.2)
    rwa [List.map_snd_zip (by omega), List.map_snd_zip (by omega)] at this
  obtain ⟨ts', ht, rfl⟩ := perm_map _ hp2 ts rfl
  refine ⟨a', ts', e, h', ht, ?_⟩
  rw [List.pairwise_map] at hs
  refine hs.imp fun {s t} hst => List.not_lt.1 fun hlt => List.not_lt.2 hst ((utf8_lt_iff t s).2 hlt)

/-! ### Searching -/

private theorem bisect_eq (a ss : List (List Nat)) (h : HoldEach a ss) (hs : ss.Pairwise (· ≤ ·)) (x t : List Nat) (hx : Holds x t) :
    ∀ (k lo hi count : Nat), hi ≤ a.length → lo ≤ hi → hi - lo < 2 ^ k → (∀ i s, i < lo → ss[i]? = some s → s < t) → (∀ i s, hi ≤ i → ss[i]? = some s → ¬ s < t) →
      ∃ pos c, bisect a x lo hi count = .ok (pos, c) ∧ c ≤ count + k ∧ pos ≤ a.length ∧ ∀ i s, ss[i]? = some s → (s < t ↔ i < pos) := by
  have hlen : a.length = ss.length := h.length_eq
  intro k
  induction k with
  | zero =>
    intro lo hi count hhi hlo hd h1 h2
    rw [bisect, if_neg (by omega)]
    refine ⟨lo, count, rfl, by omega, by omega, fun i s hi' => ⟨fun hlt => ?_, fun hlt => h1 i s hlt hi'⟩⟩
    by_contra hge
    exact h2 i s (by omega) hi' hlt
  | succ k ih =>
    intro lo hi count hhi hlo hd h1 h2
    rw [bisect]
    split
    · rename_i hlt
      have hm : (lo + hi) / 2 < a.length := by omega
      have hm' : (lo + hi) / 2 < ss.length := by omega
      have hhold : Holds a[(lo + hi) / 2] ss[(lo + hi) / 2] := List.Forall₂.get h hm hm'
      dsimp only
      rw [List.getElem?_eq_getElem hm]
      dsimp only
      rw [lt2_eq hhold hx, Res.bind_ok]
      rw [pow_succ] at hd
      have mono : ∀ (i j : Nat) s t, i ≤ j → ss[i]? = some s → ss[j]? = some t → s ≤ t := by
        intro i j s t hij hi' hj'
        obtain ⟨hi1, rfl⟩ := List.getElem?_eq_some_iff.1 hi'
        obtain ⟨hj1, rfl⟩ := List.getElem?_eq_some_iff.1 hj'
        rcases Nat.lt_or_eq_of_le hij with hij | rfl
        · exact List.pairwise_iff_getElem.1 hs i j hi1 hj1 hij
        · exact List.le_refl _
      by_cases hc : ss[(lo + hi) / 2] < t
      · simp only [hc, decide_true, if_true]
        obtain ⟨pos, c, e, h3, h4⟩ := ih ((lo + hi) / 2 + 1) hi (count + 1) hhi (by omega) (by omega)
          (fun i s hi' hs' => List.lt_of_le_of_lt (mono i _ s _ (by omega) hs' (List.getElem?_eq_getElem hm')) hc) h2
        exact ⟨pos, c, e, by omega, h4⟩
      · simp only [hc, decide_false, Bool.false_eq_true, if_false]
        obtain ⟨pos, c, e, h3, h4⟩ := ih lo ((lo + hi) / 2) (count + 1) (by omega) (by omega) (by omega) h1
          (fun i s hi' hs' hlt' => hc (List.lt_of_le_of_lt (mono _ i _ s hi' (List.getElem?_eq_getElem hm') hs') hlt'))
        exact ⟨pos, c, e, by omega, h4⟩
    · refine ⟨lo, count, rfl, by omega, by omega, fun i s hi' => ⟨fun hlt => ?_, fun hlt => h1 i s hlt hi'⟩⟩
      by_contra hge
      exact h2 i s (by omega) hi' hlt

/-- **C164.** Searching a sorted array never aborts and never reads beside it; it finds a string if and only if it is there, at its first place, and otherwise gives the place where it would have to
be; an array of fewer than 2^k strings takes at most k calls of LT. -/
theorem C164_search (a ss : List (List Nat)) (h : HoldEach a ss) (hs : ss.Pairwise (· ≤ ·)) (x t : List Nat) (hx : Holds x t) :
    ∃ found pos count, search a x = .ok (found, pos, count) ∧ (found = true ↔ t ∈ ss) ∧ (found = true → ss[pos]? = some t) ∧
      (∀ i s, ss[i]? = some s → (s < t ↔ i < pos)) ∧ pos ≤ a.length ∧ ∀ k, a.length < 2 ^ k → count ≤ k := by
  have hlen : a.length = ss.length := h.length_eq
  have run : ∀ k, a.length < 2 ^ k → ∃ pos c, bisect a x 0 a.length 0 = .ok (pos, c) ∧ c ≤ 0 + k ∧ pos ≤ a.length ∧ ∀ i s, ss[i]? = some s → (s < t ↔ i < pos) := fun k hk =>
    bisect_eq a ss h hs x t hx k 0 a.length 0 (Nat.le_refl _) (Nat.zero_le _) (by omega) (fun i s hi _ => by omega)
      (fun i s hi hi' => by have := (List.getElem?_eq_some_iff.1 hi').1; omega)
  obtain ⟨pos, c, e, _, hpos, hiff⟩ := run a.length Nat.lt_two_pow_self
  have hc : ∀ k, a.length < 2 ^ k → c ≤ k := fun k hk => by
    obtain ⟨pos', c', e', h', _⟩ := run k hk
    rw [e] at e'
    have := Res.ok.inj e'
    simp only [Prod.mk.injEq] at this
    omega
  unfold search
  rw [e, Res.bind_ok]
  dsimp only
  have absent : (∀ s, ss[pos]? = some s → s ≠ t) → t ∉ ss := by
    intro hne hmem
    obtain ⟨i, hi⟩ := List.mem_iff_getElem?.1 hmem
    have h1 : ¬ i < pos := fun hlt => List.lt_irrefl t ((hiff i t hi).2 hlt)
    have hi' := (List.getElem?_eq_some_iff.1 hi).1
    have hp : pos < ss.length := by omega
    have hge : ¬ ss[pos] < t := fun hlt => absurd ((hiff pos _ (List.getElem?_eq_getElem hp)).1 hlt) (by omega)
    have hle : ss[pos] ≤ t := by
      rcases Nat.lt_or_eq_of_le (Nat.le_of_not_lt h1) with hlt | heq
      · have := List.pairwise_iff_getElem.1 hs pos i hp hi' hlt
        rwa [(List.getElem?_eq_some_iff.1 hi).2] at this
      · subst heq; rw [(List.getElem?_eq_some_iff.1 hi).2]; exact List.le_refl _
    exact hne _ (List.getElem?_eq_getElem hp) (List.le_antisymm hle (List.not_lt.1 hge))
  by_cases hp : pos < a.length
  · have hp' : pos < ss.length := by omega
    rw [List.getElem?_eq_getElem hp]
    dsimp only
    have hhold : Holds a[pos] ss[pos] := List.Forall₂.get h hp hp'
    rw [eq2_eq hhold hx, Res.bind_ok]
    refine ⟨_, pos, c, rfl, ?_, ?_, hiff, hpos, hc⟩
    · rw [decide_eq_true_iff]
      constructor
      · intro heq; rw [← heq]; exact List.getElem_mem hp'
      · intro hmem
        by_contra hne
        exact absent (fun s hs' => by
          rw [List.getElem?_eq_getElem hp'] at hs'
          cases hs'; exact hne) hmem
    · intro hd
      rw [List.getElem?_eq_getElem hp']
      exact congrArg some (of_decide_eq_true hd)
  · rw [List.getElem?_eq_none (by omega)]
    refine ⟨false, pos, c, rfl, ?_, by simp, hiff, hpos, hc⟩
    simp only [Bool.false_eq_true, false_iff]
    exact absent fun s hs' => by
      have := (List.getElem?_eq_some_iff.1 hs').1
      omega

/-! ### The hypotheses are met -/

/-- 'b', 'ab' and 'a', the last of them with something behind its terminator. -/
example : HoldEach [[98, 0], [97, 98, 0], [97, 0, 5]] [[98], [97, 98], [97]] ∧
    bubblePasses 2 [[98, 0], [97, 98, 0], [97, 0, 5]] = .ok [[97, 0, 5], [97, 98, 0], [98, 0]] ∧
    search [[97, 0, 5], [97, 98, 0], [98, 0]] [97, 98, 0] = .ok (true, 1, 2) ∧ search [[97, 0, 5], [97, 98, 0], [98, 0]] [99, 0] = .ok (false, 3, 2) := by
  refine ⟨.cons ⟨by decide, [], rfl⟩ (.cons ⟨by decide, [], rfl⟩ (.cons ⟨by decide, [5], rfl⟩ .nil)), ?_, ?_, ?_⟩ <;> decide +kernel

end Verif
