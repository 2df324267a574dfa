import Verif.Props.PowerFailure
/-
C148 for the counters: what a power failure in the middle of a call leaves, and how far any number of failures can take CV from the count of
the completed calls.
-/
namespace Verif
open Spec

/-! ### What a failure leaves of a counter -/

private theorem pf_bounds {t : IntTy} (ht : CounterTy t) : t.lo ≤ 0 ∧ 0 < t.hi := by
  rcases ht with rfl | rfl | rfl | rfl | rfl <;> decide

/-- CV after a call of CTU from the value `c` and the memory `e` of the edge. -/
private def upTo (t : IntTy) (c : Int) (e : Bool) (cu r : Bool) : Int := if r then 0 else if cu && !e then min (c + 1) t.hi else c

private theorem ctu_call {t : IntTy} (ht : CounterTy t) (p : Profile) (s : CTUParams) (i : CTUIn) (hs : t.InRange s.cv) :
    ctuCall t p s i = .ok
      { cu := i.cu, r := i.r, pv := i.pv, q := decide (upTo t s.cv s.internal.current_value i.cu i.r ≥ i.pv),
        cv := upTo t s.cv s.internal.current_value i.cu i.r, internal := if i.r then s.internal else ⟨i.cu⟩ } := by
  have hb := pf_bounds ht
  cases hr : i.r
  · by_cases hlt : s.cv < t.hi
    · have hin : t.InRange (s.cv + 1) := ⟨by have := hs.1; omega, by omega⟩
      have hmin : min (s.cv + 1) t.hi = s.cv + 1 := by omega
      cases hc : i.cu <;> cases hv : s.internal.current_value <;>
        simp [ctuCall, ctu, CTUParams.r_edge, Signal.rising_edge, CTUParams.inc, IntTy.arith, CTUParams.update_q, hr, hlt, hin, hmin, hc, hv, upTo]
    · have hmin : min (s.cv + 1) t.hi = s.cv := by have := hs.2; omega
      cases hc : i.cu <;> cases hv : s.internal.current_value <;>
        simp [ctuCall, ctu, CTUParams.r_edge, Signal.rising_edge, CTUParams.update_q, hr, hlt, hmin, hc, hv, upTo]
  · simp [ctuCall, ctu, CTUParams.reset, CTUParams.update_q, hr, upTo]

private theorem upTo_range {t : IntTy} (ht : CounterTy t) {c : Int} (e cu r : Bool) (h : t.InRange c) : t.InRange (upTo t c e cu r) := by
  have hb := pf_bounds ht
  obtain ⟨h1, h2⟩ := h
  unfold upTo IntTy.InRange
  constructor <;> (repeat' split) <;> omega

private theorem ctu_reach {t : IntTy} (ht : CounterTy t) (p : Profile) (h : List CTUIn) (s : CTUParams)
    (hs : runFB (ctuCall t p) CTUParams.default h = .ok s) : t.InRange s.cv := by
  have hb := pf_bounds ht
  revert s
  refine snoc_induction ?_ ?_ h
  · intro s hs
    cases Res.ok.inj hs
    exact ⟨hb.1, by simp only [CTUParams.default]; omega⟩
  · intro h i ih s hs
    rw [runFB_append] at hs
    obtain ⟨s0, h0, hs⟩ := Res.bind_eq_ok.1 hs
    rw [runFB_cons, ctu_call ht p s0 i (ih s0 h0)] at hs
    cases Res.ok.inj hs
    exact upTo_range ht _ _ _ (ih s0 h0)

/-- What the calls depend on: CV and the memory of the edge. -/
private theorem ctu_same {t : IntTy} (ht : CounterTy t) {p : Profile} {a b : CTUParams} (hr : t.InRange a.cv) (hc : a.cv = b.cv)
    (he : a.internal = b.internal) : SameFrom (ctuCall t p) ctuOutputs a b := by
  refine same_of_call _ fun j => ?_
  rw [ctu_call ht p a j hr, ctu_call ht p b j (hc ▸ hr), hc, he]

/-- The memories of a call of CTU: old count and old edge memory, old count and new edge memory (only without R), all new. -/
private theorem ctu_cut {t : IntTy} (ht : CounterTy t) {p : Profile} {s m : CTUParams} {i : CTUIn} {ms : List CTUParams} (hs : t.InRange s.cv)
    (h : ctuCallStores t p s i = .ok ms) (hm : m ∈ ms) :
    (m.cv = s.cv ∧ m.internal = s.internal) ∨ (i.r = false ∧ m.cv = s.cv ∧ m.internal = ⟨i.cu⟩) ∨
    (m.cv = upTo t s.cv s.internal.current_value i.cu i.r ∧ m.internal = if i.r then s.internal else ⟨i.cu⟩) := by
  have hb := pf_bounds ht
  obtain ⟨cu, r, pv⟩ := i
  obtain ⟨_, _, _, _, cv, ⟨e⟩⟩ := s
  simp only at hs
  cases r
  · by_cases hlt : cv < t.hi
    · have hin : t.InRange (cv + 1) := ⟨by have := hs.1; omega, by omega⟩
      have hmin : min (cv + 1) t.hi = cv + 1 := by omega
      cases cu <;> cases e <;>
        simp [ctuCallStores, ctuStores, CTUParams.r_edge, Signal.rising_edge, CTUParams.inc, IntTy.arith, CTUParams.update_q, hlt, hin, hmin, upTo] at h ⊢ <;>
        subst h <;> simp at hm <;> rcases hm with rfl | rfl | rfl | rfl <;> simp
    · have hmin : min (cv + 1) t.hi = cv := by have := hs.2; omega
      cases cu <;> cases e <;>
        simp [ctuCallStores, ctuStores, CTUParams.r_edge, Signal.rising_edge, CTUParams.update_q, hlt, hmin, upTo] at h ⊢ <;>
        subst h <;> simp at hm <;> rcases hm with rfl | rfl | rfl | rfl <;> simp
  · cases Res.ok.inj h
    simp [CTUParams.reset, CTUParams.update_q, upTo] at hm ⊢
    rcases hm with rfl | rfl | rfl <;> simp

/-- What is true of **C148** for CTU: a failure leaves the instance as if the call had not taken place; or as if it had taken place; or, only in a call that counts, with the
edge used and not counted: everything is as after the call, except that CV is one less. -/
theorem C148_ctu_partial {t : IntTy} (ht : CounterTy t) (p : Profile) (h : List CTUIn) (i : CTUIn) (s s' m : CTUParams) (ms : List CTUParams)
    (hs : runFB (ctuCall t p) CTUParams.default h = .ok s) (hc : ctuCall t p s i = .ok s') (hms : ctuCallStores t p s i = .ok ms) (hm : m ∈ ms) :
    SameFrom (ctuCall t p) ctuOutputs m s ∨ SameFrom (ctuCall t p) ctuOutputs m s' ∨
    (i.r = false ∧ s'.cv = s.cv + 1 ∧ SameFrom (ctuCall t p) ctuOutputs m { s' with cv := s.cv }) := by
  have hr := ctu_reach ht p h s hs
  rw [ctu_call ht p s i hr] at hc
  cases Res.ok.inj hc
  have hr' := upTo_range ht s.internal.current_value i.cu i.r hr
  rcases ctu_cut ht hr hms hm with ⟨h1, h2⟩ | ⟨h0, h1, h2⟩ | ⟨h1, h2⟩
  · exact .inl (ctu_same ht (h1 ▸ hr) h1 h2)
  · by_cases hu : upTo t s.cv s.internal.current_value i.cu i.r = s.cv
    · exact .inr (.inl (ctu_same ht (h1 ▸ hr) (by rw [h1]; exact hu.symm) (by rw [h2]; simp [h0])))
    · refine .inr (.inr ⟨h0, ?_, ctu_same ht (h1 ▸ hr) h1 (by rw [h2]; simp [h0])⟩)
      have := hr.2
      simp [upTo, h0] at hu ⊢
      simp only [hu.1, hu.2.1]
      have := hu.2.2
      simp
      omega
  · exact .inr (.inl (ctu_same ht (h1 ▸ hr') h1 h2))

/-- The third case is met: from 0 with CU = TRUE, cut off behind the store of the edge memory; the next calls give 0, and 1 after the next rise. -/
example : ∃ m ms, ctuCallStores .i16 .debug CTUParams.default ⟨true, false, 5⟩ = .ok ms ∧ m ∈ ms ∧
    outputs (ctuCall .i16 .debug) m ctuOutputs [⟨true, false, 5⟩] = .ok (false, 0) ∧
    outputs (ctuCall .i16 .debug) m ctuOutputs [⟨true, false, 5⟩, ⟨false, false, 5⟩, ⟨true, false, 5⟩] = .ok (false, 1) :=
  ⟨⟨true, false, 5, false, 0, ⟨true⟩⟩, _, rfl, by decide, by decide, by decide⟩

/-! ### Any number of failures -/

/-- `a` and `b` differ by at most `n`. -/
def Within (n a b : Int) : Prop := a ≤ b + n ∧ b ≤ a + n

/-- A power failure during a call of CTU, whatever the order of its stores: each memory cell is as before or as after the call. -/
def TornCTU (t : IntTy) (p : Profile) (s : CTUParams) (i : CTUIn) (m : CTUParams) : Prop :=
  ∃ s', ctuCall t p s i = .ok s' ∧ (m.cv = s.cv ∨ m.cv = s'.cv) ∧ (m.internal = s.internal ∨ m.internal = s'.internal)

private theorem up_dist {t : IntTy} (ht : CounterTy t) {n : Int} {a b : Int} {e f : Bool} (ha : t.InRange a) (hb : t.InRange b) (cu r : Bool)
    (h1 : Within n a b) (h2 : Within n (upTo t a e true false) (upTo t b f true false)) (h3 : n = 0 → e = f) :
    Within n (upTo t a e cu r) (upTo t b f cu r) ∧
    Within n (upTo t (upTo t a e cu r) (if r then e else cu) true false) (upTo t (upTo t b f cu r) (if r then f else cu) true false) := by
  have hbd := pf_bounds ht
  obtain ⟨a1, a2⟩ := ha
  obtain ⟨b1, b2⟩ := hb
  simp only [Within] at *
  cases cu <;> cases r <;> cases e <;> cases f <;> simp [upTo] at * <;> omega

private theorem up_torn {t : IntTy} (ht : CounterTy t) {n : Int} {a b m : Int} {e f k : Bool} (ha : t.InRange a) (hb : t.InRange b) (cu : Bool)
    (h1 : Within n a b) (h2 : Within n (upTo t a e true false) (upTo t b f true false)) (hm : m = a ∨ m = upTo t a e cu false) (hk : k = e ∨ k = cu) :
    Within (n + 1) m (upTo t b f cu false) ∧
    Within (n + 1) (upTo t m k true false) (upTo t (upTo t b f cu false) cu true false) := by
  have hbd := pf_bounds ht
  obtain ⟨a1, a2⟩ := ha
  obtain ⟨b1, b2⟩ := hb
  simp only [Within] at *
  cases cu <;> cases e <;> cases f <;> cases k <;> simp [upTo] at * <;> omega

private theorem up_mono {t : IntTy} (ht : CounterTy t) {a b : Int} {e f : Bool} (ha : t.InRange a) (hb : t.InRange b) (cu : Bool)
    (h1 : a ≤ b) (h2 : upTo t a e true false ≤ upTo t b f true false) :
    upTo t a e cu false ≤ upTo t b f cu false ∧
    upTo t (upTo t a e cu false) cu true false ≤ upTo t (upTo t b f cu false) cu true false := by
  have hbd := pf_bounds ht
  obtain ⟨a1, a2⟩ := ha
  obtain ⟨b1, b2⟩ := hb
  cases cu <;> cases e <;> cases f <;> simp [upTo] at * <;> omega

private theorem up_old {t : IntTy} (ht : CounterTy t) {a b : Int} {e f : Bool} (ha : t.InRange a) (hb : t.InRange b) (cu : Bool)
    (h1 : a ≤ b) (h2 : upTo t a e true false ≤ upTo t b f true false) :
    a ≤ upTo t b f cu false ∧ upTo t a e true false ≤ upTo t (upTo t b f cu false) cu true false := by
  have hbd := pf_bounds ht
  obtain ⟨a1, a2⟩ := ha
  obtain ⟨b1, b2⟩ := hb
  cases cu <;> cases e <;> cases f <;> simp [upTo] at * <;> omega

private theorem up_lost {t : IntTy} (ht : CounterTy t) {a b : Int} {e f : Bool} (ha : t.InRange a) (hb : t.InRange b) (cu : Bool)
    (h1 : a ≤ b) (h2 : upTo t a e true false ≤ upTo t b f true false) :
    a ≤ upTo t b f cu false ∧ upTo t a cu true false ≤ upTo t (upTo t b f cu false) cu true false := by
  have hbd := pf_bounds ht
  obtain ⟨a1, a2⟩ := ha
  obtain ⟨b1, b2⟩ := hb
  cases cu <;> cases e <;> cases f <;> simp [upTo] at * <;> omega

private theorem ctu_failures {t : IntTy} (ht : CounterTy t) (p : Profile) {a r : CTUParams} {l : List (CTUIn × Bool)}
    (h : WithFailures (ctuCall t p) (TornCTU t p) a l r) : ∀ (b : CTUParams) (n : Int), (∀ x ∈ l, x.2 = true → x.1.r = false) →
    t.InRange a.cv → t.InRange b.cv → 0 ≤ n → Within n a.cv b.cv →
    Within n (upTo t a.cv a.internal.current_value true false) (upTo t b.cv b.internal.current_value true false) → (n = 0 → a.internal = b.internal) →
    ∃ r', runFB (ctuCall t p) b (l.map (·.1)) = .ok r' ∧ Within (n + failures l) r.cv r'.cv := by
  induction h with
  | nil s => intro b n _ _ _ _ h1 _ _; exact ⟨b, rfl, by simpa [failures] using h1⟩
  | @complete s i s' l r hc hw ih =>
    intro b n hl ha hb hn h1 h2 h3
    rw [ctu_call ht p s i ha] at hc
    cases Res.ok.inj hc
    have hd := up_dist ht (e := s.internal.current_value) (f := b.internal.current_value) ha hb i.cu i.r h1 h2 (fun h => by rw [h3 h])
    obtain ⟨r', h4, h5⟩ := ih ⟨i.cu, i.r, i.pv, decide (upTo t b.cv b.internal.current_value i.cu i.r ≥ i.pv), upTo t b.cv b.internal.current_value i.cu i.r,
      if i.r then b.internal else ⟨i.cu⟩⟩ n (fun x hx => hl x (by simp [hx])) (upTo_range ht _ _ _ ha) (upTo_range ht _ _ _ hb) hn hd.1
      (by cases hr : i.r <;> simpa [hr] using hd.2) (fun h => by rw [h3 h])
    refine ⟨r', ?_, by simpa [failures] using h5⟩
    simp only [List.map_cons, runFB_cons, ctu_call ht p b i hb, Res.bind_ok, h4]
  | @failure s i m l r hc hw ih =>
    intro b n hl ha hb hn h1 h2 h3
    obtain ⟨s', hs', hm1, hm2⟩ := hc
    rw [ctu_call ht p s i ha] at hs'
    cases Res.ok.inj hs'
    have hr : i.r = false := hl (i, true) (by simp) rfl
    simp only [hr] at hm1 hm2
    have hk : m.internal.current_value = s.internal.current_value ∨ m.internal.current_value = i.cu := by
      rcases hm2 with h | h <;> simp [h]
    have hd := up_torn ht ha hb i.cu h1 h2 hm1 hk
    have hma : t.InRange m.cv := by
      rcases hm1 with h | h <;> rw [h]
      · exact ha
      · exact upTo_range ht _ _ _ ha
    obtain ⟨r', h4, h5⟩ := ih ⟨i.cu, i.r, i.pv, decide (upTo t b.cv b.internal.current_value i.cu i.r ≥ i.pv), upTo t b.cv b.internal.current_value i.cu i.r,
      if i.r then b.internal else ⟨i.cu⟩⟩ (n + 1) (fun x hx => hl x (by simp [hx])) hma (upTo_range ht _ _ _ hb) (by omega)
      (by simpa [hr] using hd.1) (by simpa [hr] using hd.2) (fun h => by omega)
    refine ⟨r', ?_, ?_⟩
    · simp only [List.map_cons, runFB_cons, ctu_call ht p b i hb, Res.bind_ok, h4]
    · simp only [failures, Within, List.filter_cons, if_true, List.length_cons] at h5 ⊢
      omega

/-- **C148**, what any number of failures can do to CTU: in any history in which no call with R = TRUE is cut off, CV differs from the count of the same calls all
completed by at most the number of failures. This holds for any order of the stores of a call. -/
theorem C148_ctu_failures_partial {t : IntTy} (ht : CounterTy t) (p : Profile) (l : List (CTUIn × Bool)) (s : CTUParams)
    (h : WithFailures (ctuCall t p) (TornCTU t p) CTUParams.default l s) (hr : ∀ x ∈ l, x.2 = true → x.1.r = false) :
    ∃ s', runFB (ctuCall t p) CTUParams.default (l.map (·.1)) = .ok s' ∧ Within (failures l) s.cv s'.cv := by
  have hb := pf_bounds ht
  have h0 : t.InRange CTUParams.default.cv := ⟨hb.1, by simp only [CTUParams.default]; omega⟩
  simpa using ctu_failures ht p h CTUParams.default 0 hr h0 h0 (le_refl _) (by simp [Within]) (by simp [Within]) (fun _ => rfl)

/-- Three calls, two failures: both edges are lost, CV is 0 instead of 2. -/
example : ∃ s, WithFailures (ctuCall .i16 .debug) (TornCTU .i16 .debug) CTUParams.default
    [(⟨true, false, 5⟩, true), (⟨false, false, 5⟩, false), (⟨true, false, 5⟩, true)] s ∧ s.cv = 0 ∧
    (runFB (ctuCall .i16 .debug) CTUParams.default [⟨true, false, 5⟩, ⟨false, false, 5⟩, ⟨true, false, 5⟩] >>= fun s => .ok s.cv) = .ok 2 :=
  ⟨⟨true, false, 5, false, 0, ⟨true⟩⟩, .failure (m := ⟨true, false, 5, false, 0, ⟨true⟩⟩) ⟨⟨true, false, 5, false, 1, ⟨true⟩⟩, by decide, .inl rfl, .inr rfl⟩
    (.complete (s' := ⟨false, false, 5, false, 0, ⟨false⟩⟩) (by decide)
      (.failure (m := ⟨true, false, 5, false, 0, ⟨true⟩⟩) ⟨⟨true, false, 5, false, 1, ⟨true⟩⟩, by decide, .inl rfl, .inr rfl⟩ (.nil _))), rfl, by decide⟩

/-- The failures listed in the order of the program are among those in any order. -/
theorem OneOf_torn_ctu {t : IntTy} (ht : CounterTy t) (p : Profile) (s m : CTUParams) (i : CTUIn) (hs : t.InRange s.cv)
    (h : OneOf (ctuCallStores t p) s i m) : TornCTU t p s i m := by
  obtain ⟨ms, hms, hm⟩ := h
  refine ⟨_, ctu_call ht p s i hs, ?_⟩
  rcases ctu_cut ht hs hms hm with ⟨h1, h2⟩ | ⟨h0, h1, h2⟩ | ⟨h1, h2⟩
  · exact ⟨.inl h1, .inl h2⟩
  · exact ⟨.inl h1, .inr (by simp [h2, h0])⟩
  · exact ⟨.inr h1, .inr h2⟩

private theorem ctu_never_more {t : IntTy} (ht : CounterTy t) (p : Profile) {a r : CTUParams} {l : List (CTUIn × Bool)}
    (h : WithFailures (ctuCall t p) (OneOf (ctuCallStores t p)) a l r) : ∀ (b : CTUParams), (∀ x ∈ l, x.1.r = false) →
    t.InRange a.cv → t.InRange b.cv → a.cv ≤ b.cv →
    upTo t a.cv a.internal.current_value true false ≤ upTo t b.cv b.internal.current_value true false →
    ∃ r', runFB (ctuCall t p) b (l.map (·.1)) = .ok r' ∧ r.cv ≤ r'.cv := by
  induction h with
  | nil s => intro b _ _ _ h1 _; exact ⟨b, rfl, h1⟩
  | @complete s i s' l r hc hw ih =>
    intro b hl ha hb h1 h2
    rw [ctu_call ht p s i ha] at hc
    cases Res.ok.inj hc
    have hr : i.r = false := hl (i, false) (by simp)
    obtain ⟨r', h4, h5⟩ := ih ⟨i.cu, i.r, i.pv, decide (upTo t b.cv b.internal.current_value i.cu i.r ≥ i.pv), upTo t b.cv b.internal.current_value i.cu i.r,
      if i.r then b.internal else ⟨i.cu⟩⟩ (fun x hx => hl x (by simp [hx])) (upTo_range ht _ _ _ ha) (upTo_range ht _ _ _ hb)
      (by simp only [hr]; exact (up_mono ht ha hb i.cu h1 h2).1) (by simp only [hr]; exact (up_mono ht ha hb i.cu h1 h2).2)
    refine ⟨r', ?_, h5⟩
    simp only [List.map_cons, runFB_cons, ctu_call ht p b i hb, Res.bind_ok, h4]
  | @failure s i m l r hc hw ih =>
    intro b hl ha hb h1 h2
    obtain ⟨ms, hms, hm⟩ := hc
    have hr : i.r = false := hl (i, true) (by simp)
    have hd := up_mono ht ha hb i.cu h1 h2
    have hx : t.InRange m.cv ∧ m.cv ≤ upTo t b.cv b.internal.current_value i.cu false ∧
        upTo t m.cv m.internal.current_value true false ≤ upTo t (upTo t b.cv b.internal.current_value i.cu false) i.cu true false := by
      rcases ctu_cut ht ha hms hm with ⟨h3, h4⟩ | ⟨-, h3, h4⟩ | ⟨h3, h4⟩
      · rw [h3, h4]; exact ⟨ha, up_old ht ha hb i.cu h1 h2⟩
      · rw [h3, h4]; exact ⟨ha, up_lost ht ha hb i.cu h1 h2⟩
      · rw [h3, h4, hr]; exact ⟨upTo_range ht _ _ _ ha, hd⟩
    obtain ⟨r', h4, h5⟩ := ih ⟨i.cu, i.r, i.pv, decide (upTo t b.cv b.internal.current_value i.cu i.r ≥ i.pv), upTo t b.cv b.internal.current_value i.cu i.r,
      if i.r then b.internal else ⟨i.cu⟩⟩ (fun x hx => hl x (by simp [hx])) hx.1 (upTo_range ht _ _ _ hb)
      (by simp only [hr]; exact hx.2.1) (by simp only [hr]; exact hx.2.2)
    refine ⟨r', ?_, h5⟩
    simp only [List.map_cons, runFB_cons, ctu_call ht p b i hb, Res.bind_ok, h4]

/-- **C148**, no edge is counted twice: after any completed calls and further calls without R, with the stores in the order of the program, failures in the further calls
never make CV larger than the count of the same calls all completed. -/
theorem C148_ctu_never_more_partial {t : IntTy} (ht : CounterTy t) (p : Profile) (h : List CTUIn) (l : List (CTUIn × Bool)) (s0 s : CTUParams)
    (hs : runFB (ctuCall t p) CTUParams.default h = .ok s0)
    (hw : WithFailures (ctuCall t p) (OneOf (ctuCallStores t p)) s0 l s) (hr : ∀ x ∈ l, x.1.r = false) :
    ∃ s', runFB (ctuCall t p) s0 (l.map (·.1)) = .ok s' ∧ s.cv ≤ s'.cv :=
  have h0 := ctu_reach ht p h s0 hs
  ctu_never_more ht p hw s0 hr h0 h0 (le_refl _) (le_refl _)

/-- Both differences occur: with a completed call with R between, a call cut off at its very beginning can also make CV one larger. -/
example : ∃ s, WithFailures (ctuCall .i16 .debug) (OneOf (ctuCallStores .i16 .debug)) CTUParams.default
    [(⟨true, false, 5⟩, true), (⟨true, true, 5⟩, false), (⟨true, false, 5⟩, false)] s ∧ s.cv = 1 ∧
    (runFB (ctuCall .i16 .debug) CTUParams.default [⟨true, false, 5⟩, ⟨true, true, 5⟩, ⟨true, false, 5⟩] >>= fun s => .ok s.cv) = .ok 0 :=
  ⟨⟨true, false, 5, false, 1, ⟨true⟩⟩, .failure (m := ⟨true, false, 5, false, 0, ⟨false⟩⟩) ⟨_, rfl, by decide⟩
    (.complete rfl (.complete rfl (.nil _))), rfl, by decide⟩

/-! ### CTD -/

/-- CV after a call of CTD from the value `c` and the memory `e` of the edge. -/
private def downTo (t : IntTy) (c : Int) (e : Bool) (cd ld : Bool) (pv : Int) : Int := if ld then pv else if cd && !e then max (c - 1) t.lo else c

private theorem ctd_call {t : IntTy} (ht : CounterTy t) (p : Profile) (s : CTDParams) (i : CTDIn) (hs : t.InRange s.cv) :
    ctdCall t p s i = .ok
      { cd := i.cd, ld := i.ld, pv := i.pv, q := decide (downTo t s.cv s.internal.current_value i.cd i.ld i.pv ≤ 0),
        cv := downTo t s.cv s.internal.current_value i.cd i.ld i.pv, internal := if i.ld then s.internal else ⟨i.cd⟩ } := by
  have hb := pf_bounds ht
  cases hr : i.ld
  · by_cases hlt : t.lo < s.cv
    · have hin : t.InRange (s.cv - 1) := ⟨by omega, by have := hs.2; omega⟩
      have hmin : max (s.cv - 1) t.lo = s.cv - 1 := by omega
      cases hc : i.cd <;> cases hv : s.internal.current_value <;>
        simp [ctdCall, ctd, CTDParams.r_edge, Signal.rising_edge, CTDParams.dec, IntTy.arith, CTDParams.update_q, hr, hlt, hin, hmin, hc, hv, downTo]
    · have hmin : max (s.cv - 1) t.lo = s.cv := by have := hs.1; omega
      cases hc : i.cd <;> cases hv : s.internal.current_value <;>
        simp [ctdCall, ctd, CTDParams.r_edge, Signal.rising_edge, CTDParams.update_q, hr, hlt, hmin, hc, hv, downTo]
  · simp [ctdCall, ctd, CTDParams.load, CTDParams.update_q, hr, downTo]

private theorem downTo_range {t : IntTy} (ht : CounterTy t) {c : Int} (e cd ld : Bool) {pv : Int} (hp : t.InRange pv) (h : t.InRange c) : t.InRange (downTo t c e cd ld pv) := by
  have hb := pf_bounds ht
  obtain ⟨h1, h2⟩ := h
  obtain ⟨h3, h4⟩ := hp
  unfold downTo IntTy.InRange
  constructor <;> (repeat' split) <;> omega

private theorem downTo_range0 {t : IntTy} (ht : CounterTy t) {c : Int} (e cd : Bool) {pv : Int} (h : t.InRange c) : t.InRange (downTo t c e cd false pv) :=
  downTo_range (pv := 0) ht e cd false ⟨(pf_bounds ht).1, le_of_lt (pf_bounds ht).2⟩ h

private theorem ctd_reach {t : IntTy} (ht : CounterTy t) (p : Profile) (h : List CTDIn) (hp : ∀ x ∈ h, t.InRange x.pv) (s : CTDParams)
    (hs : runFB (ctdCall t p) CTDParams.default h = .ok s) : t.InRange s.cv := by
  have hb := pf_bounds ht
  revert s hp
  refine snoc_induction ?_ ?_ h
  · intro _ s hs
    cases Res.ok.inj hs
    exact ⟨hb.1, by simp only [CTDParams.default]; omega⟩
  · intro h i ih hp s hs
    have ih := ih fun x hx => hp x (by simp [hx])
    rw [runFB_append] at hs
    obtain ⟨s0, h0, hs⟩ := Res.bind_eq_ok.1 hs
    rw [runFB_cons, ctd_call ht p s0 i (ih s0 h0)] at hs
    cases Res.ok.inj hs
    exact downTo_range ht _ _ _ (hp i (by simp)) (ih s0 h0)

/-- What the calls depend on: CV and the memory of the edge. -/
private theorem ctd_same {t : IntTy} (ht : CounterTy t) {p : Profile} {a b : CTDParams} (hr : t.InRange a.cv) (hc : a.cv = b.cv)
    (he : a.internal = b.internal) : SameFrom (ctdCall t p) ctdOutputs a b := by
  refine same_of_call _ fun j => ?_
  rw [ctd_call ht p a j hr, ctd_call ht p b j (hc ▸ hr), hc, he]

/-- The memories of a call of CTD: old count and old edge memory, old count and new edge memory (only without LD), all new. -/
private theorem ctd_cut {t : IntTy} (ht : CounterTy t) {p : Profile} {s m : CTDParams} {i : CTDIn} {ms : List CTDParams} (hs : t.InRange s.cv)
    (h : ctdCallStores t p s i = .ok ms) (hm : m ∈ ms) :
    (m.cv = s.cv ∧ m.internal = s.internal) ∨ (i.ld = false ∧ m.cv = s.cv ∧ m.internal = ⟨i.cd⟩) ∨
    (m.cv = downTo t s.cv s.internal.current_value i.cd i.ld i.pv ∧ m.internal = if i.ld then s.internal else ⟨i.cd⟩) := by
  have hb := pf_bounds ht
  obtain ⟨cd, ld, pv⟩ := i
  obtain ⟨_, _, _, _, cv, ⟨e⟩⟩ := s
  simp only at hs
  cases ld
  · by_cases hlt : t.lo < cv
    · have hin : t.InRange (cv - 1) := ⟨by omega, by have := hs.2; omega⟩
      have hmin : max (cv - 1) t.lo = cv - 1 := by omega
      cases cd <;> cases e <;>
        simp [ctdCallStores, ctdStores, CTDParams.r_edge, Signal.rising_edge, CTDParams.dec, IntTy.arith, CTDParams.update_q, hlt, hin, hmin, downTo] at h ⊢ <;>
        subst h <;> simp at hm <;> rcases hm with rfl | rfl | rfl | rfl <;> simp
    · have hmin : max (cv - 1) t.lo = cv := by have := hs.1; omega
      cases cd <;> cases e <;>
        simp [ctdCallStores, ctdStores, CTDParams.r_edge, Signal.rising_edge, CTDParams.update_q, hlt, hmin, downTo] at h ⊢ <;>
        subst h <;> simp at hm <;> rcases hm with rfl | rfl | rfl | rfl <;> simp
  · cases Res.ok.inj h
    simp [CTDParams.load, CTDParams.update_q, downTo] at hm ⊢
    rcases hm with rfl | rfl | rfl <;> simp

/-- What is true of **C148** for CTD: a failure leaves the instance as if the call had not taken place; or as if it had taken place; or, only in a call that counts, with the
edge used and not counted: everything is as after the call, except that CV is one more. -/
theorem C148_ctd_partial {t : IntTy} (ht : CounterTy t) (p : Profile) (h : List CTDIn) (hp : ∀ x ∈ h, t.InRange x.pv) (i : CTDIn) (hi : t.InRange i.pv) (s s' m : CTDParams) (ms : List CTDParams)
    (hs : runFB (ctdCall t p) CTDParams.default h = .ok s) (hc : ctdCall t p s i = .ok s') (hms : ctdCallStores t p s i = .ok ms) (hm : m ∈ ms) :
    SameFrom (ctdCall t p) ctdOutputs m s ∨ SameFrom (ctdCall t p) ctdOutputs m s' ∨
    (i.ld = false ∧ s'.cv = s.cv - 1 ∧ SameFrom (ctdCall t p) ctdOutputs m { s' with cv := s.cv }) := by
  have hr := ctd_reach ht p h hp s hs
  rw [ctd_call ht p s i hr] at hc
  cases Res.ok.inj hc
  have hr' := downTo_range ht s.internal.current_value i.cd i.ld hi hr
  rcases ctd_cut ht hr hms hm with ⟨h1, h2⟩ | ⟨h0, h1, h2⟩ | ⟨h1, h2⟩
  · exact .inl (ctd_same ht (h1 ▸ hr) h1 h2)
  · by_cases hu : downTo t s.cv s.internal.current_value i.cd i.ld i.pv = s.cv
    · exact .inr (.inl (ctd_same ht (h1 ▸ hr) (by rw [h1]; exact hu.symm) (by rw [h2]; simp [h0])))
    · refine .inr (.inr ⟨h0, ?_, ctd_same ht (h1 ▸ hr) h1 (by rw [h2]; simp [h0])⟩)
      have := hr.1
      simp [downTo, h0] at hu ⊢
      simp only [hu.1, hu.2.1]
      have := hu.2.2
      simp
      omega
  · exact .inr (.inl (ctd_same ht (h1 ▸ hr') h1 h2))

/-- A power failure during a call of CTD, whatever the order of its stores: each memory cell is as before or as after the call. -/
def TornCTD (t : IntTy) (p : Profile) (s : CTDParams) (i : CTDIn) (m : CTDParams) : Prop :=
  ∃ s', ctdCall t p s i = .ok s' ∧ (m.cv = s.cv ∨ m.cv = s'.cv) ∧ (m.internal = s.internal ∨ m.internal = s'.internal)

private theorem down_dist {t : IntTy} (ht : CounterTy t) {n : Int} {a b : Int} {e f : Bool} (ha : t.InRange a) (hb : t.InRange b) (cd ld : Bool) (pv : Int)
    (hp : t.InRange pv)     (h1 : Within n a b) (h2 : Within n (downTo t a e true false 0) (downTo t b f true false 0)) (h3 : n = 0 → e = f) :
    Within n (downTo t a e cd ld pv) (downTo t b f cd ld pv) ∧
    Within n (downTo t (downTo t a e cd ld pv) (if ld then e else cd) true false 0) (downTo t (downTo t b f cd ld pv) (if ld then f else cd) true false 0) := by
  have hbd := pf_bounds ht
  obtain ⟨a1, a2⟩ := ha
  obtain ⟨b1, b2⟩ := hb
  obtain ⟨p1, p2⟩ := hp
  simp only [Within] at *
  cases cd <;> cases ld <;> cases e <;> cases f <;> simp [downTo] at * <;> omega

private theorem down_torn {t : IntTy} (ht : CounterTy t) {n : Int} {a b m : Int} {e f k : Bool} (ha : t.InRange a) (hb : t.InRange b) (cd : Bool)
    (h1 : Within n a b) (h2 : Within n (downTo t a e true false 0) (downTo t b f true false 0)) (hm : m = a ∨ m = downTo t a e cd false 0) (hk : k = e ∨ k = cd) :
    Within (n + 1) m (downTo t b f cd false 0) ∧
    Within (n + 1) (downTo t m k true false 0) (downTo t (downTo t b f cd false 0) cd true false 0) := by
  have hbd := pf_bounds ht
  obtain ⟨a1, a2⟩ := ha
  obtain ⟨b1, b2⟩ := hb
  simp only [Within] at *
  cases cd <;> cases e <;> cases f <;> cases k <;> simp [downTo] at * <;> omega

private theorem down_mono {t : IntTy} (ht : CounterTy t) {a b : Int} {e f : Bool} (ha : t.InRange a) (hb : t.InRange b) (cd : Bool)
    (h1 : b ≤ a) (h2 : downTo t b f true false 0 ≤ downTo t a e true false 0) :
    downTo t b f cd false 0 ≤ downTo t a e cd false 0 ∧
    downTo t (downTo t b f cd false 0) cd true false 0 ≤ downTo t (downTo t a e cd false 0) cd true false 0 := by
  have hbd := pf_bounds ht
  obtain ⟨a1, a2⟩ := ha
  obtain ⟨b1, b2⟩ := hb
  cases cd <;> cases e <;> cases f <;> simp [downTo] at * <;> omega

private theorem down_old {t : IntTy} (ht : CounterTy t) {a b : Int} {e f : Bool} (ha : t.InRange a) (hb : t.InRange b) (cd : Bool)
    (h1 : b ≤ a) (h2 : downTo t b f true false 0 ≤ downTo t a e true false 0) :
    downTo t b f cd false 0 ≤ a ∧ downTo t (downTo t b f cd false 0) cd true false 0 ≤ downTo t a e true false 0 := by
  have hbd := pf_bounds ht
  obtain ⟨a1, a2⟩ := ha
  obtain ⟨b1, b2⟩ := hb
  cases cd <;> cases e <;> cases f <;> simp [downTo] at * <;> omega

private theorem down_lost {t : IntTy} (ht : CounterTy t) {a b : Int} {e f : Bool} (ha : t.InRange a) (hb : t.InRange b) (cd : Bool)
    (h1 : b ≤ a) (h2 : downTo t b f true false 0 ≤ downTo t a e true false 0) :
    downTo t b f cd false 0 ≤ a ∧ downTo t (downTo t b f cd false 0) cd true false 0 ≤ downTo t a cd true false 0 := by
  have hbd := pf_bounds ht
  obtain ⟨a1, a2⟩ := ha
  obtain ⟨b1, b2⟩ := hb
  cases cd <;> cases e <;> cases f <;> simp [downTo] at * <;> omega

private theorem ctd_failures {t : IntTy} (ht : CounterTy t) (p : Profile) {a r : CTDParams} {l : List (CTDIn × Bool)}
    (h : WithFailures (ctdCall t p) (TornCTD t p) a l r) : ∀ (b : CTDParams) (n : Int), (∀ x ∈ l, x.2 = true → x.1.ld = false) → (∀ x ∈ l, t.InRange x.1.pv) →
    t.InRange a.cv → t.InRange b.cv → 0 ≤ n → Within n a.cv b.cv →
    Within n (downTo t a.cv a.internal.current_value true false 0) (downTo t b.cv b.internal.current_value true false 0) → (n = 0 → a.internal = b.internal) →
    ∃ r', runFB (ctdCall t p) b (l.map (·.1)) = .ok r' ∧ Within (n + failures l) r.cv r'.cv := by
  induction h with
  | nil s => intro b n _ _ _ _ _ h1 _ _; exact ⟨b, rfl, by simpa [failures] using h1⟩
  | @complete s i s' l r hc hw ih =>
    intro b n hl hp ha hb hn h1 h2 h3
    rw [ctd_call ht p s i ha] at hc
    cases Res.ok.inj hc
    have hd := down_dist ht (e := s.internal.current_value) (f := b.internal.current_value) ha hb i.cd i.ld i.pv (hp _ (.head _)) h1 h2 (fun h => by rw [h3 h])
    obtain ⟨r', h4, h5⟩ := ih ⟨i.cd, i.ld, i.pv, decide (downTo t b.cv b.internal.current_value i.cd i.ld i.pv ≤ 0), downTo t b.cv b.internal.current_value i.cd i.ld i.pv,
      if i.ld then b.internal else ⟨i.cd⟩⟩ n (fun x hx => hl x (by simp [hx])) (fun x hx => hp x (by simp [hx]))
      (downTo_range ht _ _ _ (hp _ (.head _)) ha) (downTo_range ht _ _ _ (hp _ (.head _)) hb) hn hd.1
      (by cases hr : i.ld <;> simpa [hr] using hd.2) (fun h => by rw [h3 h])
    refine ⟨r', ?_, by simpa [failures] using h5⟩
    simp only [List.map_cons, runFB_cons, ctd_call ht p b i hb, Res.bind_ok, h4]
  | @failure s i m l r hc hw ih =>
    intro b n hl hp ha hb hn h1 h2 h3
    obtain ⟨s', hs', hm1, hm2⟩ := hc
    rw [ctd_call ht p s i ha] at hs'
    cases Res.ok.inj hs'
    have hr : i.ld = false := hl (i, true) (by simp) rfl
    have hz : ∀ c e cd pv, downTo t c e cd false pv = downTo t c e cd false 0 := fun _ _ _ _ => rfl
    simp only [hr] at hm1 hm2
    rw [hz] at hm1
    have hk : m.internal.current_value = s.internal.current_value ∨ m.internal.current_value = i.cd := by
      rcases hm2 with h | h <;> simp [h]
    have hd := down_torn ht ha hb i.cd h1 h2 hm1 hk
    have hma : t.InRange m.cv := by
      rcases hm1 with h | h <;> rw [h]
      · exact ha
      · exact downTo_range0 ht _ _ ha
    obtain ⟨r', h4, h5⟩ := ih ⟨i.cd, i.ld, i.pv, decide (downTo t b.cv b.internal.current_value i.cd i.ld i.pv ≤ 0), downTo t b.cv b.internal.current_value i.cd i.ld i.pv,
      if i.ld then b.internal else ⟨i.cd⟩⟩ (n + 1) (fun x hx => hl x (by simp [hx])) (fun x hx => hp x (by simp [hx])) hma
      (downTo_range ht _ _ _ (hp _ (.head _)) hb) (by omega)
      (by simp only [hr]; exact hd.1) (by simp only [hr]; exact hd.2) (fun h => by omega)
    refine ⟨r', ?_, ?_⟩
    · simp only [List.map_cons, runFB_cons, ctd_call ht p b i hb, Res.bind_ok, h4]
    · simp only [failures, Within, List.filter_cons, if_true, List.length_cons] at h5 ⊢
      omega

/-- **C148**, what any number of failures can do to CTD: in any history in which no call with LD = TRUE is cut off, CV differs from the count of the same calls all
completed by at most the number of failures. This holds for any order of the stores of a call. -/
theorem C148_ctd_failures_partial {t : IntTy} (ht : CounterTy t) (p : Profile) (l : List (CTDIn × Bool)) (s : CTDParams)
    (h : WithFailures (ctdCall t p) (TornCTD t p) CTDParams.default l s) (hr : ∀ x ∈ l, x.2 = true → x.1.ld = false)
    (hp : ∀ x ∈ l, t.InRange x.1.pv) :
    ∃ s', runFB (ctdCall t p) CTDParams.default (l.map (·.1)) = .ok s' ∧ Within (failures l) s.cv s'.cv := by
  have hb := pf_bounds ht
  have h0 : t.InRange CTDParams.default.cv := ⟨hb.1, by simp only [CTDParams.default]; omega⟩
  simpa using ctd_failures ht p h CTDParams.default 0 hr hp h0 h0 (le_refl _) (by simp [Within]) (by simp [Within]) (fun _ => rfl)

/-- The failures listed in the order of the program are among those in any order. -/
theorem OneOf_torn_ctd {t : IntTy} (ht : CounterTy t) (p : Profile) (s m : CTDParams) (i : CTDIn) (hs : t.InRange s.cv)
    (h : OneOf (ctdCallStores t p) s i m) : TornCTD t p s i m := by
  obtain ⟨ms, hms, hm⟩ := h
  refine ⟨_, ctd_call ht p s i hs, ?_⟩
  rcases ctd_cut ht hs hms hm with ⟨h1, h2⟩ | ⟨h0, h1, h2⟩ | ⟨h1, h2⟩
  · exact ⟨.inl h1, .inl h2⟩
  · exact ⟨.inl h1, .inr (by simp [h2, h0])⟩
  · exact ⟨.inr h1, .inr h2⟩

private theorem ctd_never_less {t : IntTy} (ht : CounterTy t) (p : Profile) {a r : CTDParams} {l : List (CTDIn × Bool)}
    (h : WithFailures (ctdCall t p) (OneOf (ctdCallStores t p)) a l r) : ∀ (b : CTDParams), (∀ x ∈ l, x.1.ld = false) →
    t.InRange a.cv → t.InRange b.cv → b.cv ≤ a.cv →
    downTo t b.cv b.internal.current_value true false 0 ≤ downTo t a.cv a.internal.current_value true false 0 →
    ∃ r', runFB (ctdCall t p) b (l.map (·.1)) = .ok r' ∧ r'.cv ≤ r.cv := by
  induction h with
  | nil s => intro b _ _ _ h1 _; exact ⟨b, rfl, h1⟩
  | @complete s i s' l r hc hw ih =>
    intro b hl ha hb h1 h2
    rw [ctd_call ht p s i ha] at hc
    cases Res.ok.inj hc
    have hr : i.ld = false := hl (i, false) (by simp)
    have hra : t.InRange (downTo t s.cv s.internal.current_value i.cd false i.pv) := downTo_range0 ht _ _ ha
    have hrb : t.InRange (downTo t b.cv b.internal.current_value i.cd false i.pv) := downTo_range0 ht _ _ hb
    obtain ⟨r', h4, h5⟩ := ih ⟨i.cd, i.ld, i.pv, decide (downTo t b.cv b.internal.current_value i.cd i.ld i.pv ≤ 0), downTo t b.cv b.internal.current_value i.cd i.ld i.pv,
      if i.ld then b.internal else ⟨i.cd⟩⟩ (fun x hx => hl x (by simp [hx])) (hr ▸ hra) (hr ▸ hrb)
      (by simp only [hr]; exact (down_mono ht ha hb i.cd h1 h2).1) (by simp only [hr]; exact (down_mono ht ha hb i.cd h1 h2).2)
    refine ⟨r', ?_, h5⟩
    simp only [List.map_cons, runFB_cons, ctd_call ht p b i hb, Res.bind_ok, h4]
  | @failure s i m l r hc hw ih =>
    intro b hl ha hb h1 h2
    obtain ⟨ms, hms, hm⟩ := hc
    have hr : i.ld = false := hl (i, true) (by simp)
    have hra : t.InRange (downTo t s.cv s.internal.current_value i.cd false i.pv) := downTo_range0 ht _ _ ha
    have hrb : t.InRange (downTo t b.cv b.internal.current_value i.cd false i.pv) := downTo_range0 ht _ _ hb
    have hd := down_mono ht ha hb i.cd h1 h2
    have hx : t.InRange m.cv ∧ downTo t b.cv b.internal.current_value i.cd false 0 ≤ m.cv ∧
        downTo t (downTo t b.cv b.internal.current_value i.cd false 0) i.cd true false 0 ≤ downTo t m.cv m.internal.current_value true false 0 := by
      rcases ctd_cut ht ha hms hm with ⟨h3, h4⟩ | ⟨-, h3, h4⟩ | ⟨h3, h4⟩
      · rw [h3, h4]; exact ⟨ha, down_old ht ha hb i.cd h1 h2⟩
      · rw [h3, h4]; exact ⟨ha, down_lost ht ha hb i.cd h1 h2⟩
      · rw [h3, h4, hr]; exact ⟨hra, hd⟩
    obtain ⟨r', h4, h5⟩ := ih ⟨i.cd, i.ld, i.pv, decide (downTo t b.cv b.internal.current_value i.cd i.ld i.pv ≤ 0), downTo t b.cv b.internal.current_value i.cd i.ld i.pv,
      if i.ld then b.internal else ⟨i.cd⟩⟩ (fun x hx => hl x (by simp [hx])) hx.1 (hr ▸ hrb)
      (by simp only [hr]; exact hx.2.1) (by simp only [hr]; exact hx.2.2)
    refine ⟨r', ?_, h5⟩
    simp only [List.map_cons, runFB_cons, ctd_call ht p b i hb, Res.bind_ok, h4]

/-- **C148**, no edge is counted twice: after any completed calls and further calls without LD, with the stores in the order of the program, failures in the further calls
never make CV smaller than the count of the same calls all completed. -/
theorem C148_ctd_never_less_partial {t : IntTy} (ht : CounterTy t) (p : Profile) (h : List CTDIn) (hp : ∀ x ∈ h, t.InRange x.pv)
    (l : List (CTDIn × Bool)) (s0 s : CTDParams) (hs : runFB (ctdCall t p) CTDParams.default h = .ok s0)
    (hw : WithFailures (ctdCall t p) (OneOf (ctdCallStores t p)) s0 l s) (hr : ∀ x ∈ l, x.1.ld = false) :
    ∃ s', runFB (ctdCall t p) s0 (l.map (·.1)) = .ok s' ∧ s'.cv ≤ s.cv :=
  have h0 := ctd_reach ht p h hp s0 hs
  ctd_never_less ht p hw s0 hr h0 h0 (le_refl _) (le_refl _)

/-- CTD loaded with 5, then two rises of which the first is cut off behind the store of the edge memory: CV is 4 instead of 3. -/
example : ∃ s0 s, runFB (ctdCall .i16 .debug) CTDParams.default [⟨false, true, 5⟩] = .ok s0 ∧
    WithFailures (ctdCall .i16 .debug) (OneOf (ctdCallStores .i16 .debug)) s0
      [(⟨true, false, 5⟩, true), (⟨false, false, 5⟩, false), (⟨true, false, 5⟩, false)] s ∧ s.cv = 4 ∧
    (runFB (ctdCall .i16 .debug) s0 [⟨true, false, 5⟩, ⟨false, false, 5⟩, ⟨true, false, 5⟩] >>= fun s => .ok s.cv) = .ok 3 :=
  ⟨⟨false, true, 5, false, 5, ⟨false⟩⟩, ⟨true, false, 5, false, 4, ⟨true⟩⟩, by decide,
    .failure (m := ⟨true, false, 5, false, 5, ⟨true⟩⟩) ⟨_, rfl, by decide⟩ (.complete rfl (.complete rfl (.nil _))), rfl, by decide⟩

end Verif
