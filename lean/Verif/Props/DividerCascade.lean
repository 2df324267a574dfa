import Verif.Props.Divider
/-
C126: self-resetting counters in series. Each counter counts the pulses of the one before; the last one gives a pulse at every
edge whose number is a multiple of the product of the divisors, which may be far beyond the range of the counters.
-/
namespace Verif
open Spec

namespace Spec

/-- The product of the divisors. -/
def product : List Int → Int
  | [] => 1
  | N :: l => N * product l

end Spec

/-- One scan of `ctu1(CU := x, R := ctu1.Q, PV := N1); ctu2(CU := ctu1.Q, R := ctu2.Q, PV := N2); ...` for the list of divisors (calls of
`CTU`, src/counters.rs:37-47). -/
def cascade (t : IntTy) (p : Profile) : List Int → List CTUParams → Bool → Res (List CTUParams)
  | N :: l, s :: ss, x => do
    let s ← divider t p N s x
    let ss ← cascade t p l ss s.q
    pure (s :: ss)
  | _, _, _ => pure []

/-- `Q` of the last counter after the scans `h`, or how the program ended. -/
def cascaded (t : IntTy) (p : Profile) (l : List Int) (h : List Bool) : Res (Option Bool) :=
  outputs (cascade t p l) (l.map fun _ => CTUParams.default) (fun ss => ss.getLast?.map (·.q)) h

/-! ### The pulses of one divider -/

private instance (N : Int) (h : List Bool) (x : Bool) : Decidable (EveryNth N h x) := by unfold EveryNth; infer_instance

/-- What a divider by `N` shows in the scans `g` after the scans `a`. -/
private def shown (N : Int) : List Bool → List Bool → List Bool
  | _, [] => []
  | a, x :: g => decide (EveryNth N a x) :: shown N (a ++ [x]) g

private theorem shown_append (N : Int) : ∀ (g g' a : List Bool), shown N a (g ++ g') = shown N a g ++ shown N (a ++ g) g'
  | [], g', a => by simp [shown]
  | x :: g, g', a => by
    rw [List.cons_append, shown, shown, shown_append N g g' (a ++ [x]), List.cons_append, List.append_assoc]; rfl

private theorem shown_snoc (N : Int) (h : List Bool) (x : Bool) :
    shown N [] (h ++ [x]) = shown N [] h ++ [decide (EveryNth N h x)] := by
  rw [shown_append]; rfl

private theorem shown_length (N : Int) : ∀ (g a : List Bool), (shown N a g).length = g.length
  | [], _ => rfl
  | x :: g, a => by rw [shown, List.length_cons, List.length_cons, shown_length N g]

private theorem everyNth_edge {N : Int} {h : List Bool} {x : Bool} (he : EveryNth N h x) : (h.getLast?).getD false = false ∧ x = true := by
  have h1 := he.1
  rw [edges_snoc] at h1
  cases hx : x <;> cases hl : (h.getLast?).getD false <;> simp [hx, hl] at h1 ⊢

/-- One pulse for every `N` edges; a pulse only while the signal is TRUE. -/
private theorem shown_edges (N : Nat) (h : List Bool) : risingEdges false (shown N [] h) = risingEdges false h / N ∧
    (((shown N [] h).getLast?).getD false = true → (h.getLast?).getD false = true) := by
  refine snoc_induction (P := fun h => risingEdges false (shown N [] h) = risingEdges false h / N ∧
    (((shown N [] h).getLast?).getD false = true → (h.getLast?).getD false = true)) ⟨by simp [shown, risingEdges], by simp [shown]⟩ ?_ h
  rintro h x ⟨ih1, ih2⟩
  rw [shown_snoc]
  constructor
  · rw [edges_snoc, ih1]
    by_cases he : EveryNth N h x
    · obtain ⟨e1, e2⟩ := everyNth_edge he
      have hl : ((shown N [] h).getLast?).getD false = false := by
        cases hc : ((shown N [] h).getLast?).getD false with
        | false => rfl
        | true => rw [ih2 hc] at e1; cases e1
      obtain ⟨q, hq⟩ := he.2
      have hq' : N ∣ risingEdges false (h ++ [x]) := by
        have := he.2; exact_mod_cast this
      rw [he.1] at hq' ⊢
      rw [hl, decide_eq_true he]
      simp only [Bool.not_false, Bool.and_self, if_true]
      rw [Nat.succ_div_of_dvd hq']
    · rw [decide_eq_false he]
      simp only [Bool.and_false, Bool.false_eq_true, if_false, Nat.add_zero]
      rw [edges_snoc]
      split
      · rename_i hx
        have hnd : ¬ N ∣ risingEdges false h + 1 := by
          intro hd
          apply he
          unfold EveryNth
          rw [edges_snoc, if_pos hx]
          exact ⟨rfl, by exact_mod_cast hd⟩
        rw [Nat.succ_div_of_not_dvd hnd]
      · rfl
  · simp only [List.getLast?_concat, Option.getD_some, decide_eq_true_eq]
    exact fun he => (everyNth_edge he).2

private theorem shown_gaps (N : Int) (h : List Bool) (hg : LongGaps h) : LongGaps (shown N [] h) := by
  intro a b e
  have hlen := congrArg List.length e
  rw [shown_length] at hlen
  simp only [List.length_append, List.length_cons, List.length_nil] at hlen
  obtain ⟨a', g, rfl, ha⟩ : ∃ a' g, h = a' ++ g ∧ a'.length = a.length :=
    ⟨h.take a.length, h.drop a.length, (List.take_append_drop _ _).symm, by rw [List.length_take]; omega⟩
  rw [List.length_append] at hlen
  match g, hlen with
  | [], hl => simp at hl; omega
  | [_], hl => simp at hl; omega
  | [_, _], hl => simp at hl; omega
  | x :: y :: z :: b', hl =>
    rw [shown_append, List.append_assoc] at e
    have e2 := (List.append_inj e (by rw [shown_length]; exact ha)).2
    simp only [shown, List.nil_append, List.cons_append, List.cons.injEq, decide_eq_true_eq, List.append_assoc] at e2
    obtain ⟨ex, -, ez, -⟩ := e2
    obtain ⟨-, rfl⟩ := everyNth_edge ex
    obtain ⟨hy, rfl⟩ := everyNth_edge ez
    rw [show a' ++ [true, y] = (a' ++ [true]) ++ [y] by simp, List.getLast?_concat, Option.getD_some] at hy
    subst hy
    exact hg a' b' (by simp)

/-- Every `M`-th pulse of a divider by `N` is at every `N * M`-th edge. -/
private theorem everyNth_mul (N : Nat) (hN : 1 ≤ N) (M : Int) (h : List Bool) (x : Bool) :
    EveryNth M (shown N [] h) (decide (EveryNth N h x)) ↔ EveryNth (N * M) h x := by
  have e1 := (shown_edges N h).1
  have e2 := (shown_edges N (h ++ [x])).1
  rw [shown_snoc] at e2
  have es := edges_snoc h false x
  show (_ = _ ∧ _) ↔ (_ = _ ∧ _)
  rw [e2, e1]
  clear e1 e2
  generalize risingEdges false (h ++ [x]) = E' at *
  generalize risingEdges false h = E at *
  constructor
  · rintro ⟨h1, h2⟩
    have hE : E' = E + 1 := by
      split at es
      · exact es
      · rw [es, Nat.add_zero] at h1; omega
    subst hE
    have hd : N ∣ E + 1 := by
      refine Classical.byContradiction fun hc => ?_
      rw [Nat.succ_div_of_not_dvd hc] at h1; omega
    refine ⟨rfl, ?_⟩
    obtain ⟨q, hq⟩ := hd
    rw [hq] at h2 ⊢
    rw [Nat.mul_div_cancel_left _ (by omega)] at h2
    push_cast
    exact Int.mul_dvd_mul_left _ h2
  · rintro ⟨rfl, h2⟩
    have hd : N ∣ E + 1 := by
      have : (N : Int) ∣ ((E + 1 : Nat) : Int) := Int.dvd_trans (Int.dvd_mul_right _ _) h2
      exact_mod_cast this
    refine ⟨Nat.succ_div_of_dvd hd, ?_⟩
    obtain ⟨q, hq⟩ := hd
    rw [hq] at h2 ⊢
    rw [Nat.mul_div_cancel_left _ (by omega)]
    push_cast at h2
    exact Int.dvd_of_mul_dvd_mul_left (by omega) h2

/-! ### The series -/

private theorem divider_run {t : IntTy} (ht : CounterTy t) (p : Profile) (N : Int) (hN : 1 ≤ N) (hr : t.InRange N) (h : List Bool)
    (hg : LongGaps h) : ∃ s, runFB (divider t p N) CTUParams.default h = .ok s ∧ s.q = ((shown N [] h).getLast?).getD false := by
  rcases snoc_cases h with rfl | ⟨a, x, rfl⟩
  · exact ⟨_, rfl, rfl⟩
  · obtain ⟨q, hq, hiff⟩ := C118_partial ht p N hN hr (a ++ [x]) hg a x [] (by simp)
    unfold divided outputs at hq
    cases hs : runFB (divider t p N) CTUParams.default (a ++ [x]) with
    | ok s =>
      rw [hs] at hq
      have : s.q = q := Res.ok.inj hq
      refine ⟨s, rfl, ?_⟩
      rw [shown_snoc, List.getLast?_concat, Option.getD_some, this, Bool.eq_iff_iff, hiff, decide_eq_true_eq]
    | panic => rw [hs] at hq; cases hq
    | ub => rw [hs] at hq; cases hq

/-- The counters of a series after the scans `h`: the first one counts `h`, the others what it shows. -/
private theorem cascade_run {t : IntTy} (ht : CounterTy t) (p : Profile) (N : Int) (hN : 1 ≤ N) (hr : t.InRange N) (l : List Int)
    (h : List Bool) (hg : LongGaps h) (ss : List CTUParams)
    (hss : runFB (cascade t p l) (l.map fun _ => CTUParams.default) (shown N [] h) = .ok ss)
    (hpre : ∀ a b, h = a ++ b → ∃ ss, runFB (cascade t p l) (l.map fun _ => CTUParams.default) (shown N [] a) = .ok ss) :
    ∃ s, runFB (divider t p N) CTUParams.default h = .ok s ∧
      runFB (cascade t p (N :: l)) ((N :: l).map fun _ => CTUParams.default) h = .ok (s :: ss) := by
  revert ss hg hpre
  refine snoc_induction (P := fun h => LongGaps h → ∀ ss, runFB (cascade t p l) (l.map fun _ => CTUParams.default) (shown N [] h) = .ok ss →
    (∀ a b, h = a ++ b → ∃ ss, runFB (cascade t p l) (l.map fun _ => CTUParams.default) (shown N [] a) = .ok ss) →
    ∃ s, runFB (divider t p N) CTUParams.default h = .ok s ∧
      runFB (cascade t p (N :: l)) ((N :: l).map fun _ => CTUParams.default) h = .ok (s :: ss)) ?_ ?_ h
  · intro _ ss hss _
    exact ⟨_, rfl, by rw [← Res.ok.inj hss]; rfl⟩
  · intro a x ih hg ss hss hpre
    have hga : LongGaps a := fun c d hcd => hg c (d ++ [x]) (by rw [hcd]; simp)
    obtain ⟨ss₀, hss₀⟩ := hpre a [x] rfl
    obtain ⟨s, e1, e2⟩ := ih hga ss₀ hss₀ (fun c d hcd => hpre c (d ++ [x]) (by rw [hcd]; simp))
    obtain ⟨s', e3, hq⟩ := divider_run ht p N hN hr (a ++ [x]) hg
    refine ⟨s', e3, ?_⟩
    rw [runFB_snoc_ok e1] at e3
    rw [runFB_snoc_ok e2]
    rw [shown_snoc, runFB_snoc_ok hss₀] at hss
    rw [shown_snoc, List.getLast?_concat, Option.getD_some] at hq
    simp only [cascade, e3, Res.bind_ok, hq, hss, Res.pure_eq]

private theorem cascade_ok {t : IntTy} (ht : CounterTy t) (p : Profile) : ∀ (l : List Int), (∀ N ∈ l, 1 ≤ N ∧ t.InRange N) → ∀ (h : List Bool),
    LongGaps h → ∃ ss, runFB (cascade t p l) (l.map fun _ => CTUParams.default) h = .ok ss ∧ ss.length = l.length ∧
      ∀ a x, h = a ++ [x] → l ≠ [] → ss.getLast?.map (·.q) = some (decide (EveryNth (product l) a x))
  | [], _, h, _ => by
    refine ⟨[], ?_, rfl, fun _ _ _ hne => absurd rfl hne⟩
    refine snoc_induction (P := fun h => runFB (cascade t p []) [] h = .ok []) rfl ?_ h
    intro a x ih
    rw [runFB_snoc_ok ih]; rfl
  | N :: l, hl, h, hg => by
    obtain ⟨hN, hr⟩ := hl N (by simp)
    have hl' : ∀ M ∈ l, 1 ≤ M ∧ t.InRange M := fun M hM => hl M (by simp [hM])
    obtain ⟨ss, e1, e2, e3⟩ := cascade_ok ht p l hl' (shown N [] h) (shown_gaps N h hg)
    obtain ⟨s, f1, f2⟩ := cascade_run ht p N hN hr l h hg ss e1 (fun a b hab => by
      obtain ⟨ss', e, -⟩ := cascade_ok ht p l hl' (shown N [] a) (shown_gaps N a fun c d hcd => hg c (d ++ b) (by rw [hab, hcd]; simp))
      exact ⟨ss', e⟩)
    refine ⟨s :: ss, f2, by simp [e2], ?_⟩
    rintro a x rfl -
    cases l with
    | nil =>
      rw [List.length_eq_zero_iff.1 e2]
      obtain ⟨s', f3, hq⟩ := divider_run ht p N hN hr (a ++ [x]) hg
      rw [f1] at f3
      obtain rfl := Res.ok.inj f3
      rw [shown_snoc, List.getLast?_concat, Option.getD_some] at hq
      simp [hq, product]
    | cons M l =>
      have := e3 (shown N [] a) (decide (EveryNth N a x)) (shown_snoc N a x) (by simp)
      obtain ⟨n, rfl⟩ : ∃ n : Nat, N = n := ⟨N.toNat, by omega⟩
      cases ss with
      | nil => simp at e2
      | cons s2 ss =>
        rw [List.getLast?_cons_cons, this]
        congr 2
        exact propext (everyNth_mul n (by omega) (product (M :: l)) a x)

/-- **C126.** For a series of dividers (at least one, each divisor from 1 up to what the counter can hold) and a signal that stays
FALSE for at least two scans whenever it goes to FALSE: the program never aborts, and the last output is TRUE exactly in the
scans with an edge whose number is a multiple of the product of all divisors. -/
theorem C126_product {t : IntTy} (ht : CounterTy t) (p : Profile) (l : List Int) (hl : ∀ N ∈ l, 1 ≤ N ∧ t.InRange N) (hne : l ≠ [])
    (a : List Bool) (x : Bool) (hg : LongGaps (a ++ [x])) :
    ∃ q, cascaded t p l (a ++ [x]) = .ok (some q) ∧ (q = true ↔ EveryNth (product l) a x) := by
  obtain ⟨ss, e1, -, e3⟩ := cascade_ok ht p l hl (a ++ [x]) hg
  refine ⟨_, ?_, decide_eq_true_iff⟩
  unfold cascaded outputs
  rw [e1]
  exact congrArg Res.ok (e3 a x rfl hne)

/-- **C126.** The order of the dividers does not matter for the last output. -/
theorem C126_order {t : IntTy} (ht : CounterTy t) (p : Profile) (l l' : List Int) (hp : l.Perm l') (hl : ∀ N ∈ l, 1 ≤ N ∧ t.InRange N)
    (hne : l ≠ []) (a : List Bool) (x : Bool) (hg : LongGaps (a ++ [x])) : cascaded t p l (a ++ [x]) = cascaded t p l' (a ++ [x]) := by
  have hprod : product l = product l' := by
    clear hl hne
    induction hp with
    | nil => rfl
    | cons N _ ih => simp only [product, ih]
    | swap N M l => simp only [product]; rw [← Int.mul_assoc, ← Int.mul_assoc, Int.mul_comm M N]
    | trans _ _ ih1 ih2 => rw [ih1, ih2]
  obtain ⟨q, e, hq⟩ := C126_product ht p l hl hne a x hg
  obtain ⟨q', e', hq'⟩ := C126_product ht p l' (fun N hN => hl N (hp.mem_iff.2 hN))
    (fun h => hne (by rw [h] at hp; exact List.Perm.eq_nil hp)) a x hg
  rw [e, e', show q = q' from Bool.eq_iff_iff.2 (by rw [hq, hq', hprod])]

/-- **C126.** A single divider with the product as preset does the same, if the product fits. -/
theorem C126_single {t : IntTy} (ht : CounterTy t) (p : Profile) (l : List Int) (hl : ∀ N ∈ l, 1 ≤ N ∧ t.InRange N) (hne : l ≠ [])
    (hr : t.InRange (product l)) (a : List Bool) (x : Bool) (hg : LongGaps (a ++ [x])) :
    ∃ q, cascaded t p l (a ++ [x]) = .ok (some q) ∧ divided t p (product l) (a ++ [x]) = .ok q := by
  have h1 : 1 ≤ product l := by
    clear hne hr
    induction l with
    | nil => decide
    | cons N l ih =>
      have := ih fun M hM => hl M (by simp [hM])
      have := (hl N (by simp)).1
      exact Int.le_trans this (by simpa [product] using Int.mul_le_mul_of_nonneg_left (show 1 ≤ product l by assumption) (show 0 ≤ N by omega))
  obtain ⟨q, e, hq⟩ := C126_product ht p l hl hne a x hg
  obtain ⟨q', e', hq'⟩ := C118_partial ht p (product l) h1 hr (a ++ [x]) hg a x [] (by simp)
  exact ⟨q, e, by rw [e', show q' = q from Bool.eq_iff_iff.2 (by rw [hq, hq'])]⟩

/-- A divider by 2 before a divider by 3: a pulse at the sixth edge; after five edges none. -/
example : cascaded .i16 .debug [2, 3] ((List.replicate 6 [false, false, true]).flatten) = .ok (some true) ∧
    cascaded .i16 .debug [2, 3] ((List.replicate 5 [false, false, true]).flatten) = .ok (some false) ∧
    cascaded .i16 .debug [2, 3] ((List.replicate 7 [false, false, true]).flatten) = .ok (some false) ∧
    product [2, 3] = 6 ∧ (∀ N ∈ [2, 3], 1 ≤ N ∧ IntTy.i16.InRange N) := by decide

/-- The signals of the example stay FALSE for two scans. -/
example : LongGaps [false, false, true, false, false, true] := by
  intro a b h
  match a, h with
  | [], h => simp at h
  | [_], h => simp at h
  | [_, _], h => simp at h
  | [_, _, _], h => simp at h
  | _ :: _ :: _ :: _ :: a, h => have := congrArg List.length h; simp at this; omega

end Verif
