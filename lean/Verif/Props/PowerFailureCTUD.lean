import Verif.Props.PowerFailureCounters
/-
C148 for CTUD.
-/
namespace Verif
open Spec

private theorem pfud_bounds {t : IntTy} (ht : CounterTy t) : t.lo ≤ 0 ∧ 0 < t.hi := by
  rcases ht with rfl | rfl | rfl | rfl | rfl <;> decide

/-- CV after a call without R and LD from the value `c` and the memories `eu`, `ed` of the edges. -/
private def netTo (t : IntTy) (c : Int) (eu ed cu cd : Bool) : Int :=
  if (cu && !eu) && (cd && !ed) then c else if cu && !eu then min (c + 1) t.hi else if cd && !ed then max (c - 1) t.lo else c

private def udTo (t : IntTy) (s : CTUDParams) (i : CTUDIn) : Int :=
  if i.r then 0 else if i.ld then i.pv else netTo t s.cv s.internal_up.current_value s.internal_down.current_value i.cu i.cd

private def udNext (t : IntTy) (s : CTUDParams) (i : CTUDIn) : CTUDParams :=
  { cu := i.cu, cd := i.cd, r := i.r, ld := i.ld, pv := i.pv, qu := decide (udTo t s i ≥ i.pv), qd := decide (udTo t s i ≤ 0), cv := udTo t s i,
    internal_up := if i.r || i.ld then s.internal_up else ⟨i.cu⟩, internal_down := if i.r || i.ld then s.internal_down else ⟨i.cd⟩ }

private theorem ctud_call {t : IntTy} (ht : CounterTy t) (p : Profile) (s : CTUDParams) (i : CTUDIn) (hs : t.InRange s.cv) :
    ctudCall t p s i = .ok (udNext t s i) := by
  have hb := pfud_bounds ht
  obtain ⟨cu, cd, r, ld, pv⟩ := i
  obtain ⟨_, _, _, _, _, _, _, cv, ⟨eu⟩, ⟨ed⟩⟩ := s
  obtain ⟨h1, h2⟩ := hs
  simp only at h1 h2
  cases r
  · cases ld
    · by_cases hhi : cv < t.hi
      · have hu : t.InRange (cv + 1) := ⟨by omega, by omega⟩
        have hu' : min (cv + 1) t.hi = cv + 1 := by omega
        by_cases hlo : t.lo < cv
        · have hd : t.InRange (cv - 1) := ⟨by omega, by omega⟩
          have hd' : max (cv - 1) t.lo = cv - 1 := by omega
          cases cu <;> cases cd <;> cases eu <;> cases ed <;>
            simp [ctudCall, ctud, CTUDParams.cu_r_edge, CTUDParams.cd_r_edge, Signal.rising_edge, CTUDParams.inc, CTUDParams.dec, IntTy.arith, CTUDParams.update_qu,
              CTUDParams.update_qd, hhi, hlo, hu, hd, hu', hd', udNext, udTo, netTo]
        · have hd' : max (cv - 1) t.lo = cv := by omega
          cases cu <;> cases cd <;> cases eu <;> cases ed <;>
            simp [ctudCall, ctud, CTUDParams.cu_r_edge, CTUDParams.cd_r_edge, Signal.rising_edge, CTUDParams.inc, IntTy.arith, CTUDParams.update_qu,
              CTUDParams.update_qd, hhi, hlo, hu, hu', hd', udNext, udTo, netTo]
      · have hu' : min (cv + 1) t.hi = cv := by omega
        have hlo : t.lo < cv := by omega
        have hd : t.InRange (cv - 1) := ⟨by omega, by omega⟩
        have hd' : max (cv - 1) t.lo = cv - 1 := by omega
        cases cu <;> cases cd <;> cases eu <;> cases ed <;>
          simp [ctudCall, ctud, CTUDParams.cu_r_edge, CTUDParams.cd_r_edge, Signal.rising_edge, CTUDParams.dec, IntTy.arith, CTUDParams.update_qu,
            CTUDParams.update_qd, hhi, hlo, hd, hu', hd', udNext, udTo, netTo]
    · simp [ctudCall, ctud, CTUDParams.load, CTUDParams.update_qu, CTUDParams.update_qd, udNext, udTo]
  · simp [ctudCall, ctud, CTUDParams.reset, CTUDParams.update_qu, CTUDParams.update_qd, udNext, udTo]

private theorem net_range {t : IntTy} (ht : CounterTy t) {c : Int} (eu ed cu cd : Bool) (h : t.InRange c) : t.InRange (netTo t c eu ed cu cd) := by
  have hb := pfud_bounds ht
  obtain ⟨h1, h2⟩ := h
  unfold netTo IntTy.InRange
  constructor <;> (repeat' split) <;> omega

private theorem net_contract {t : IntTy} {a b n : Int} (cu cd x y : Bool) (h : Within n a b) : Within n (netTo t a cu cd x y) (netTo t b cu cd x y) := by
  simp only [Within] at *
  unfold netTo
  (repeat' split) <;> omega

private theorem net_torn {t : IntTy} (ht : CounterTy t) {a m : Int} {k l : Bool} (ha : t.InRange a) (eu ed cu cd x y : Bool)
    (hm : m = a ∨ m = netTo t a eu ed cu cd) (hk : k = eu ∨ k = cu) (hl : l = ed ∨ l = cd) :
    Within 2 (netTo t m k l x y) (netTo t (netTo t a eu ed cu cd) cu cd x y) := by
  have hb := pfud_bounds ht
  obtain ⟨h1, h2⟩ := ha
  simp only [Within]
  cases eu <;> cases ed <;> cases cu <;> cases cd <;> cases x <;> cases y <;> cases k <;> cases l <;> simp [netTo] at * <;> omega

private theorem net_order {t : IntTy} (ht : CounterTy t) {a : Int} {k l : Bool} (ha : t.InRange a) (eu ed cu cd x y : Bool)
    (hk : k = eu ∧ l = ed ∨ k = cu ∧ l = ed ∨ k = cu ∧ l = cd) :
    Within 1 (netTo t a k l x y) (netTo t (netTo t a eu ed cu cd) cu cd x y) := by
  have hb := pfud_bounds ht
  obtain ⟨h1, h2⟩ := ha
  simp only [Within]
  cases eu <;> cases ed <;> cases cu <;> cases cd <;> cases x <;> cases y <;> cases k <;> cases l <;> simp [netTo] at * <;> omega

private theorem ud_range {t : IntTy} (ht : CounterTy t) {s : CTUDParams} {i : CTUDIn} (h : t.InRange s.cv) (hp : t.InRange i.pv) : t.InRange (udTo t s i) := by
  unfold udTo
  split
  · exact ⟨(pfud_bounds ht).1, le_of_lt (pfud_bounds ht).2⟩
  · split
    · exact hp
    · exact net_range ht _ _ _ _ h

private theorem ctud_reach {t : IntTy} (ht : CounterTy t) (p : Profile) (h : List CTUDIn) (hp : ∀ x ∈ h, t.InRange x.pv) (s : CTUDParams)
    (hs : runFB (ctudCall t p) CTUDParams.default h = .ok s) : t.InRange s.cv := by
  revert s hp
  refine snoc_induction ?_ ?_ h
  · intro _ s hs
    cases Res.ok.inj hs
    exact ⟨(pfud_bounds ht).1, le_of_lt (pfud_bounds ht).2⟩
  · intro h i ih hp s hs
    have ih := ih fun x hx => hp x (by simp [hx])
    rw [runFB_append] at hs
    obtain ⟨s0, h0, hs⟩ := Res.bind_eq_ok.1 hs
    rw [runFB_cons, ctud_call ht p s0 i (ih s0 h0)] at hs
    cases Res.ok.inj hs
    exact ud_range ht (ih s0 h0) (hp i (by simp))

private theorem ctud_same {t : IntTy} (ht : CounterTy t) {p : Profile} {a b : CTUDParams} (hr : t.InRange a.cv) (hc : a.cv = b.cv)
    (hu : a.internal_up = b.internal_up) (hd : a.internal_down = b.internal_down) : SameFrom (ctudCall t p) ctudOutputs a b := by
  refine same_of_call _ fun j => ?_
  rw [ctud_call ht p a j hr, ctud_call ht p b j (hc ▸ hr)]
  have e : udTo t a j = udTo t b j := by simp only [udTo, hc, hu, hd]
  simp only [udNext, e, hu, hd]

/-- The memories of a call of CTUD. -/
private theorem ctud_cut {t : IntTy} (ht : CounterTy t) {p : Profile} {s m : CTUDParams} {i : CTUDIn} {ms : List CTUDParams} (hs : t.InRange s.cv)
    (h : ctudCallStores t p s i = .ok ms) (hm : m ∈ ms) :
    (m.cv = s.cv ∧ m.internal_up = s.internal_up ∧ m.internal_down = s.internal_down) ∨
    (i.r = false ∧ i.ld = false ∧ m.cv = s.cv ∧ m.internal_up = ⟨i.cu⟩ ∧ (m.internal_down = s.internal_down ∨ m.internal_down = ⟨i.cd⟩)) ∨
    (m.cv = (udNext t s i).cv ∧ m.internal_up = (udNext t s i).internal_up ∧ m.internal_down = (udNext t s i).internal_down) := by
  have hb := pfud_bounds ht
  obtain ⟨cu, cd, r, ld, pv⟩ := i
  obtain ⟨_, _, _, _, _, _, _, cv, ⟨eu⟩, ⟨ed⟩⟩ := s
  obtain ⟨h1, h2⟩ := hs
  simp only at h1 h2
  cases r
  · cases ld
    · by_cases hhi : cv < t.hi
      · have hu : t.InRange (cv + 1) := ⟨by omega, by omega⟩
        have hu' : min (cv + 1) t.hi = cv + 1 := by omega
        by_cases hlo : t.lo < cv
        · have hd : t.InRange (cv - 1) := ⟨by omega, by omega⟩
          have hd' : max (cv - 1) t.lo = cv - 1 := by omega
          cases cu <;> cases cd <;> cases eu <;> cases ed <;>
            simp [ctudCallStores, ctudStores, CTUDParams.cu_r_edge, CTUDParams.cd_r_edge, Signal.rising_edge, CTUDParams.inc, CTUDParams.dec, IntTy.arith, CTUDParams.update_qu,
              CTUDParams.update_qd, hhi, hlo, hu, hd, hu', hd', udNext, udTo, netTo] at h ⊢ <;>
            subst h <;> simp at hm <;> rcases hm with rfl | rfl | rfl | rfl | rfl | rfl <;> simp
        · have hd' : max (cv - 1) t.lo = cv := by omega
          cases cu <;> cases cd <;> cases eu <;> cases ed <;>
            simp [ctudCallStores, ctudStores, CTUDParams.cu_r_edge, CTUDParams.cd_r_edge, Signal.rising_edge, CTUDParams.inc, IntTy.arith, CTUDParams.update_qu,
              CTUDParams.update_qd, hhi, hlo, hu, hu', hd', udNext, udTo, netTo] at h ⊢ <;>
            subst h <;> simp at hm <;> rcases hm with rfl | rfl | rfl | rfl | rfl | rfl <;> simp
      · have hu' : min (cv + 1) t.hi = cv := by omega
        have hlo : t.lo < cv := by omega
        have hd : t.InRange (cv - 1) := ⟨by omega, by omega⟩
        have hd' : max (cv - 1) t.lo = cv - 1 := by omega
        cases cu <;> cases cd <;> cases eu <;> cases ed <;>
          simp [ctudCallStores, ctudStores, CTUDParams.cu_r_edge, CTUDParams.cd_r_edge, Signal.rising_edge, CTUDParams.dec, IntTy.arith, CTUDParams.update_qu,
            CTUDParams.update_qd, hhi, hlo, hd, hu', hd', udNext, udTo, netTo] at h ⊢ <;>
          subst h <;> simp at hm <;> rcases hm with rfl | rfl | rfl | rfl | rfl | rfl <;> simp
    · cases Res.ok.inj h
      simp [CTUDParams.load, CTUDParams.update_qu, CTUDParams.update_qd, udNext, udTo] at hm ⊢
      rcases hm with rfl | rfl | rfl | rfl <;> simp
  · cases Res.ok.inj h
    simp [CTUDParams.reset, CTUDParams.update_qu, CTUDParams.update_qd, udNext, udTo] at hm ⊢
    rcases hm with rfl | rfl | rfl | rfl <;> simp

/-- What is true of **C148** for CTUD: a failure leaves the instance as if the call had not taken place; or as if it had taken place; or, only in a call without R and LD, with
edges used and not counted: everything is as after a call with the same CU and some CD, except that CV is the one before. -/
theorem C148_ctud_partial {t : IntTy} (ht : CounterTy t) (p : Profile) (h : List CTUDIn) (hp : ∀ x ∈ h, t.InRange x.pv) (i : CTUDIn) (hi : t.InRange i.pv)
    (s s' m : CTUDParams) (ms : List CTUDParams)
    (hs : runFB (ctudCall t p) CTUDParams.default h = .ok s) (hc : ctudCall t p s i = .ok s') (hms : ctudCallStores t p s i = .ok ms) (hm : m ∈ ms) :
    SameFrom (ctudCall t p) ctudOutputs m s ∨ SameFrom (ctudCall t p) ctudOutputs m s' ∨
    (i.r = false ∧ i.ld = false ∧ ∃ cd s1, ctudCall t p s { i with cd := cd } = .ok s1 ∧ SameFrom (ctudCall t p) ctudOutputs m { s1 with cv := s.cv }) := by
  have hr := ctud_reach ht p h hp s hs
  rw [ctud_call ht p s i hr] at hc
  cases Res.ok.inj hc
  rcases ctud_cut ht hr hms hm with ⟨h1, h2, h3⟩ | ⟨h4, h5, h1, h2, h3⟩ | ⟨h1, h2, h3⟩
  · exact .inl (ctud_same ht (h1 ▸ hr) h1 h2 h3)
  · refine .inr (.inr ⟨h4, h5, m.internal_down.current_value, _, ctud_call ht p s _ hr, ctud_same ht (h1 ▸ hr) h1 ?_ ?_⟩)
    · simp [udNext, h4, h5, h2]
    · simp [udNext, h4, h5]
  · exact .inr (.inl (ctud_same ht (h1 ▸ ud_range ht hr hi) h1 h2 h3))

/-- The third case is met: from 0 with CU = TRUE, cut off behind the stores of the edge memories. -/
example : ∃ m ms, ctudCallStores .i16 .debug CTUDParams.default ⟨true, false, false, false, 5⟩ = .ok ms ∧ m ∈ ms ∧
    outputs (ctudCall .i16 .debug) m ctudOutputs [⟨true, false, false, false, 5⟩] = .ok (false, true, 0) ∧
    outputs (ctudCall .i16 .debug) CTUDParams.default ctudOutputs [⟨true, false, false, false, 5⟩, ⟨true, false, false, false, 5⟩] = .ok (false, false, 1) :=
  ⟨⟨true, false, false, false, 5, false, false, 0, ⟨true⟩, ⟨false⟩⟩, _, rfl, by decide, by decide, by decide⟩

/-! ### Any number of failures -/

/-- A power failure during a call of CTUD, whatever the order of its stores: each memory cell is as before or as after the call. -/
def TornCTUD (t : IntTy) (p : Profile) (s : CTUDParams) (i : CTUDIn) (m : CTUDParams) : Prop :=
  ∃ s', ctudCall t p s i = .ok s' ∧ (m.cv = s.cv ∨ m.cv = s'.cv) ∧ (m.internal_up = s.internal_up ∨ m.internal_up = s'.internal_up) ∧
    (m.internal_down = s.internal_down ∨ m.internal_down = s'.internal_down)

/-- Two memories whose counts differ by at most `n`, and also after one more call with any CU and CD. -/
private def Close (t : IntTy) (n : Int) (a b : CTUDParams) : Prop :=
  ∀ x y, Within n (netTo t a.cv a.internal_up.current_value a.internal_down.current_value x y)
    (netTo t b.cv b.internal_up.current_value b.internal_down.current_value x y)

private theorem within_add {n k a b c : Int} (h1 : Within k a b) (h2 : Within n b c) : Within (n + k) a c := by
  simp only [Within] at *
  omega

private theorem close_call {t : IntTy} {n : Int} {a b : CTUDParams} (i : CTUDIn) (h : Close t n a b) (hr : i.r = false) (hl : i.ld = false) :
    Close t n (udNext t a i) (udNext t b i) := by
  intro x y
  simp only [udNext, udTo, hr, hl, Bool.or_self]
  exact net_contract _ _ _ _ (h i.cu i.cd)

private theorem within_cv {t : IntTy} {n : Int} {a b : CTUDParams} (h : Close t n a b) : Within n a.cv b.cv := by
  simpa [netTo] using h false false

private theorem close_set {t : IntTy} (ht : CounterTy t) {n c : Int} {a b : CTUDParams} (hc : t.InRange c) (ha : a.cv = c) (hb : b.cv = c) (hn : 0 ≤ n)
    (h : n ≤ 1 → a.internal_up = b.internal_up ∧ a.internal_down = b.internal_down) : Close t n a b := by
  intro x y
  have hbd := pfud_bounds ht
  by_cases h1 : n ≤ 1
  · rw [ha, hb, (h h1).1, (h h1).2]
    simp only [Within]
    omega
  · rw [ha, hb]
    obtain ⟨c1, c2⟩ := hc
    simp only [Within, netTo]
    (repeat' split) <;> omega

private theorem ctud_failures {t : IntTy} (ht : CounterTy t) (p : Profile) {a r : CTUDParams} {l : List (CTUDIn × Bool)}
    (h : WithFailures (ctudCall t p) (TornCTUD t p) a l r) : ∀ (b : CTUDParams) (n : Int), (∀ x ∈ l, x.2 = true → x.1.r = false ∧ x.1.ld = false) →
    (∀ x ∈ l, t.InRange x.1.pv) → t.InRange a.cv → t.InRange b.cv → 0 ≤ n → Close t n a b →
    (n ≤ 1 → a.internal_up = b.internal_up ∧ a.internal_down = b.internal_down) →
    ∃ r', runFB (ctudCall t p) b (l.map (·.1)) = .ok r' ∧ Within (n + 2 * failures l) r.cv r'.cv := by
  induction h with
  | nil s => intro b n _ _ _ _ _ h1 _; exact ⟨b, rfl, by simpa [failures] using within_cv h1⟩
  | @complete s i s' l r hc hw ih =>
    intro b n hl hp ha hb hn h1 h3
    rw [ctud_call ht p s i ha] at hc
    cases Res.ok.inj hc
    have hi : t.InRange i.pv := hp _ (.head _)
    obtain ⟨r', h4, h5⟩ := ih (udNext t b i) n (fun x hx => hl x (by simp [hx])) (fun x hx => hp x (by simp [hx])) (ud_range ht ha hi) (ud_range ht hb hi) hn
      (by
        cases hr : i.r
        · cases hd : i.ld
          · exact close_call i h1 hr hd
          · refine close_set ht hi (by simp [udNext, udTo, hr, hd]) (by simp [udNext, udTo, hr, hd]) hn fun h => ?_
            simpa [udNext, hd] using h3 h
        · refine close_set ht (c := 0) ⟨(pfud_bounds ht).1, le_of_lt (pfud_bounds ht).2⟩ (by simp [udNext, udTo, hr]) (by simp [udNext, udTo, hr]) hn fun h => ?_
          simpa [udNext, hr] using h3 h)
      (fun h => by simp [udNext, h3 h])
    refine ⟨r', ?_, by simpa [failures] using h5⟩
    simp only [List.map_cons, runFB_cons, ctud_call ht p b i hb, Res.bind_ok, h4]
  | @failure s i m l r hc hw ih =>
    intro b n hl hp ha hb hn h1 h3
    obtain ⟨s', hs', hm1, hm2, hm3⟩ := hc
    rw [ctud_call ht p s i ha] at hs'
    cases Res.ok.inj hs'
    have hi : t.InRange i.pv := hp _ (.head _)
    obtain ⟨hr, hd⟩ := hl _ (.head _) rfl
    simp only at hr hd
    have hma : t.InRange m.cv := by
      rcases hm1 with h | h <;> rw [h]
      · exact ha
      · exact ud_range ht ha hi
    have hcl : Close t (n + 2) m (udNext t b i) := by
      intro x y
      refine within_add ?_ (close_call i h1 hr hd x y)
      simp only [udNext, udTo, hr, hd, Bool.or_self] at hm1 hm2 hm3 ⊢
      exact net_torn ht ha _ _ _ _ x y hm1 (by rcases hm2 with h | h <;> simp [h]) (by rcases hm3 with h | h <;> simp [h])
    obtain ⟨r', h4, h5⟩ := ih (udNext t b i) (n + 2) (fun x hx => hl x (by simp [hx])) (fun x hx => hp x (by simp [hx])) hma (ud_range ht hb hi) (by omega)
      hcl (fun h => by omega)
    refine ⟨r', ?_, ?_⟩
    · simp only [List.map_cons, runFB_cons, ctud_call ht p b i hb, Res.bind_ok, h4]
    · simp only [failures, Within, List.filter_cons, if_true, List.length_cons] at h5 ⊢
      omega

/-- **C148**, what any number of failures can do to CTUD: in any history in which no call with R or LD is cut off, CV differs from the count of the same calls all
completed by at most twice the number of failures. This holds for any order of the stores of a call. -/
theorem C148_ctud_failures_partial {t : IntTy} (ht : CounterTy t) (p : Profile) (l : List (CTUDIn × Bool)) (s : CTUDParams)
    (h : WithFailures (ctudCall t p) (TornCTUD t p) CTUDParams.default l s) (hr : ∀ x ∈ l, x.2 = true → x.1.r = false ∧ x.1.ld = false)
    (hp : ∀ x ∈ l, t.InRange x.1.pv) :
    ∃ s', runFB (ctudCall t p) CTUDParams.default (l.map (·.1)) = .ok s' ∧ Within (2 * failures l) s.cv s'.cv := by
  have h0 : t.InRange CTUDParams.default.cv := ⟨(pfud_bounds ht).1, le_of_lt (pfud_bounds ht).2⟩
  simpa using ctud_failures ht p h CTUDParams.default 0 hr hp h0 h0 (le_refl _) (fun _ _ => by simp [Within]) (fun _ => ⟨rfl, rfl⟩)

/-- The failures listed in the order of the program are among those in any order. -/
theorem OneOf_torn_ctud {t : IntTy} (ht : CounterTy t) (p : Profile) (s m : CTUDParams) (i : CTUDIn) (hs : t.InRange s.cv)
    (h : OneOf (ctudCallStores t p) s i m) : TornCTUD t p s i m := by
  obtain ⟨ms, hms, hm⟩ := h
  refine ⟨_, ctud_call ht p s i hs, ?_⟩
  rcases ctud_cut ht hs hms hm with ⟨h1, h2, h3⟩ | ⟨h4, h5, h1, h2, h3⟩ | ⟨h1, h2, h3⟩
  · exact ⟨.inl h1, .inl h2, .inl h3⟩
  · exact ⟨.inl h1, .inr (by simp [udNext, h2, h4, h5]), by rcases h3 with h | h <;> simp [udNext, h, h4, h5]⟩
  · exact ⟨.inr h1, .inr h2, .inr h3⟩

private theorem ctud_order {t : IntTy} (ht : CounterTy t) (p : Profile) {a r : CTUDParams} {l : List (CTUDIn × Bool)}
    (h : WithFailures (ctudCall t p) (OneOf (ctudCallStores t p)) a l r) : ∀ (b : CTUDParams) (n : Int), (∀ x ∈ l, x.1.r = false ∧ x.1.ld = false) →
    t.InRange a.cv → t.InRange b.cv → Close t n a b →
    ∃ r', runFB (ctudCall t p) b (l.map (·.1)) = .ok r' ∧ Within (n + failures l) r.cv r'.cv := by
  have hud : ∀ (s : CTUDParams) (i : CTUDIn), i.r = false → i.ld = false → t.InRange s.cv → t.InRange (udNext t s i).cv := fun s i hr hd h => by
    simp only [udNext, udTo, hr, hd]
    exact net_range ht _ _ _ _ h
  induction h with
  | nil s => intro b n _ _ _ h1; exact ⟨b, rfl, by simpa [failures] using within_cv h1⟩
  | @complete s i s' l r hc hw ih =>
    intro b n hl ha hb h1
    rw [ctud_call ht p s i ha] at hc
    cases Res.ok.inj hc
    obtain ⟨hr, hd⟩ := hl _ (.head _)
    simp only at hr hd
    obtain ⟨r', h4, h5⟩ := ih (udNext t b i) n (fun x hx => hl x (by simp [hx])) (hud s i hr hd ha) (hud b i hr hd hb) (close_call i h1 hr hd)
    refine ⟨r', ?_, by simpa [failures] using h5⟩
    simp only [List.map_cons, runFB_cons, ctud_call ht p b i hb, Res.bind_ok, h4]
  | @failure s i m l r hc hw ih =>
    intro b n hl ha hb h1
    obtain ⟨ms, hms, hm⟩ := hc
    obtain ⟨hr, hd⟩ := hl _ (.head _)
    simp only at hr hd
    have hx : t.InRange m.cv ∧ Close t (n + 1) m (udNext t b i) := by
      have hcl := close_call i h1 hr hd
      have ho : ∀ k l, (k = s.internal_up.current_value ∧ l = s.internal_down.current_value ∨ k = i.cu ∧ l = s.internal_down.current_value ∨ k = i.cu ∧ l = i.cd) →
          ∀ x y, Within (n + 1) (netTo t s.cv k l x y)
            (netTo t (udNext t b i).cv (udNext t b i).internal_up.current_value (udNext t b i).internal_down.current_value x y) := by
        intro k l hkl x y
        refine within_add ?_ (hcl x y)
        simp only [udNext, udTo, hr, hd, Bool.or_self]
        exact net_order ht ha _ _ _ _ x y hkl
      rcases ctud_cut ht ha hms hm with ⟨h3, h4, h5⟩ | ⟨-, -, h3, h4, h5 | h5⟩ | ⟨h3, h4, h5⟩
      · exact ⟨h3 ▸ ha, fun x y => by rw [h3, h4, h5]; exact ho _ _ (.inl ⟨rfl, rfl⟩) x y⟩
      · exact ⟨h3 ▸ ha, fun x y => by rw [h3, h4, h5]; exact ho _ _ (.inr (.inl ⟨rfl, rfl⟩)) x y⟩
      · exact ⟨h3 ▸ ha, fun x y => by rw [h3, h4, h5]; exact ho _ _ (.inr (.inr ⟨rfl, rfl⟩)) x y⟩
      · refine ⟨h3 ▸ hud s i hr hd ha, fun x y => ?_⟩
        have := hcl x y
        rw [h3, h4, h5]
        simp only [Within] at this ⊢
        omega
    obtain ⟨r', h4, h5⟩ := ih (udNext t b i) (n + 1) (fun x hx => hl x (by simp [hx])) hx.1 (hud b i hr hd hb) hx.2
    refine ⟨r', ?_, ?_⟩
    · simp only [List.map_cons, runFB_cons, ctud_call ht p b i hb, Res.bind_ok, h4]
    · simp only [failures, Within, List.filter_cons, if_true, List.length_cons] at h5 ⊢
      omega

/-- **C148** for CTUD with the stores in the order of the program: after any completed calls and further calls without R and LD, CV differs from the count of the same calls all
completed by at most the number of failures. -/
theorem C148_ctud_order_partial {t : IntTy} (ht : CounterTy t) (p : Profile) (h : List CTUDIn) (hp : ∀ x ∈ h, t.InRange x.pv)
    (l : List (CTUDIn × Bool)) (s0 s : CTUDParams) (hs : runFB (ctudCall t p) CTUDParams.default h = .ok s0)
    (hw : WithFailures (ctudCall t p) (OneOf (ctudCallStores t p)) s0 l s) (hr : ∀ x ∈ l, x.1.r = false ∧ x.1.ld = false) :
    ∃ s', runFB (ctudCall t p) s0 (l.map (·.1)) = .ok s' ∧ Within (failures l) s.cv s'.cv := by
  have h0 := ctud_reach ht p h hp s0 hs
  simpa using ctud_order ht p hw s0 0 hr h0 h0 (fun _ _ => by simp [Within])

/-- One failure and a difference of 2: the call cut off at its very beginning has CU fallen and CD risen, and a completed call with R follows. -/
example : ∃ s, WithFailures (ctudCall .i16 .debug) (OneOf (ctudCallStores .i16 .debug)) CTUDParams.default
    [(⟨true, false, false, false, 5⟩, false), (⟨false, true, false, false, 5⟩, true), (⟨false, false, true, false, 5⟩, false), (⟨true, true, false, false, 5⟩, false)] s ∧
    s.cv = -1 ∧
    (runFB (ctudCall .i16 .debug) CTUDParams.default [⟨true, false, false, false, 5⟩, ⟨false, true, false, false, 5⟩, ⟨false, false, true, false, 5⟩,
      ⟨true, true, false, false, 5⟩] >>= fun s => .ok s.cv) = .ok 1 :=
  ⟨⟨true, true, false, false, 5, false, true, -1, ⟨true⟩, ⟨true⟩⟩,
    .complete (s' := ⟨true, false, false, false, 5, false, false, 1, ⟨true⟩, ⟨false⟩⟩) (by decide)
      (.failure (m := ⟨false, true, false, false, 5, false, false, 1, ⟨true⟩, ⟨false⟩⟩) ⟨_, rfl, by decide⟩
        (.complete (s' := ⟨false, false, true, false, 5, false, true, 0, ⟨true⟩, ⟨false⟩⟩) (by decide) (.complete (by decide) (.nil _)))), rfl, by decide⟩

end Verif
