import Verif.Lemmas.ProbeLog
import Verif.Lemmas.Scan
/- which masks a scan probes, from its log -/
namespace Mbus
open Spec

/-- a probe: mask, and what happened -/
abbrev Visit := List Byte × List Act

/-- the log of some probes -/
def logOf (es : List Visit) : List Act := es.flatMap fun e => .progress e.1 :: e.2

/-- what happened in a probe with at most `N` selections -/
def Probed (N : Nat) (m : List Byte) (l : List Act) : Prop := ∃ r a, Probing m N r a l

theorem probing_codes {m : List Byte} {n : Nat} {r : Int} {a : Option (List Byte)} {l : List Act} (h : Probing m n r a l) :
    r = -1 ∨ r = 0 ∨ r = 1 ∨ r = 2 := by
  induction h with
  | exhausted => simp
  | decided n r l hr _ => rcases hr with h | h <;> simp [h]
  | again n r a l l' _ _ ih => exact ih
  | selected n r a l l' _ hi => cases hi <;> simp

theorem probing_failed' {m : List Byte} {n : Nat} {r : Int} {a : Option (List Byte)} {l : List Act} (h : Probing m n r a l) (hr : r = -1) :
    (l = [] ∧ ¬ AddressMask m) ∨ ∃ pre f, l = pre ++ [.sent f (-1)] := by
  induction h with
  | exhausted => exact absurd hr (by decide)
  | decided n r l _ hs =>
    subst hr
    cases hs with
    | malformed h => exact .inl ⟨rfl, h⟩
    | sendFailed f h h' => exact .inr ⟨[], f, rfl⟩
  | again n r a l l' hs _ ih =>
    rcases ih hr with ⟨_, h⟩ | ⟨pre, f, h⟩
    · refine absurd ?_ h
      cases hs <;> assumption
    · exact .inr ⟨l ++ pre, f, by rw [h, List.append_assoc]⟩
  | selected n r a l l' hs hi =>
    subst hr
    cases hi with
    | sendFailed f h => exact .inr ⟨l, f, rfl⟩

theorem probing_failed {m : List Byte} {n : Nat} {r : Int} {a : Option (List Byte)} {l : List Act} (h : Probing m n r a l)
    (h1 : r ≠ PROBE_SINGLE) (h2 : r ≠ PROBE_COLLISION) (h3 : r ≠ PROBE_NOTHING) : Failed l := by
  have hr : r = -1 := by
    rcases probing_codes h with h | h | h | h
    · exact h
    · exact absurd h h3
    · exact absurd h h1
    · exact absurd h h2
  rcases probing_failed' h hr with ⟨h, _⟩ | h
  · exact .inl h
  · exact .inr h

/-- the probes of the loop over the digits `ds` at position `p` -/
def LoopRun (N p : Nat) (sub : List Byte → List Visit → Prop) (m : List Byte) : List Byte → List Visit → Prop
  | [], es => es = []
  | d :: ds, es => ∃ seg rest, es = (m.set p d, seg) :: rest ∧ Probed N (m.set p d) seg ∧
      ((Collided seg ∧ ∃ e1 e2, rest = e1 ++ e2 ∧ sub (m.set p d) e1 ∧ LoopRun N p sub m ds e2) ∨
       (¬ Collided seg ∧ (LoopRun N p sub m ds rest ∨ (Failed seg ∧ rest = []))))

/-- the probes of the scan from position `16 - n` -/
def ScanRun (N : Nat) : Nat → List Byte → List Visit → Prop
  | 0, _, es => es = []
  | n + 1, m, es =>
    (IsWild (m.getD (15 - n) 0) ∧ LoopRun N (15 - n) (ScanRun N n) m decimalDigits es) ∨
    (¬ IsWild (m.getD (15 - n) 0) ∧ n ≠ 0 ∧ ScanRun N n m es) ∨
    (¬ IsWild (m.getD (15 - n) 0) ∧ n = 0 ∧ LoopRun N 15 (ScanRun N 0) m [m.getD 15 0] es)

variable {N : Nat}

theorem scanRun_zero (m : List Byte) (es : List Visit) : ScanRun N 0 m es ↔ es = [] := by rw [ScanRun]

theorem scanRun_succ (n : Nat) (m : List Byte) (es : List Visit) : ScanRun N (n + 1) m es ↔
    (IsWild (m.getD (15 - n) 0) ∧ LoopRun N (15 - n) (ScanRun N n) m decimalDigits es) ∨
    (¬ IsWild (m.getD (15 - n) 0) ∧ n ≠ 0 ∧ ScanRun N n m es) ∨
    (¬ IsWild (m.getD (15 - n) 0) ∧ n = 0 ∧ LoopRun N 15 (ScanRun N 0) m [m.getD 15 0] es) := by rw [ScanRun]

theorem logOf_append (a b : List Visit) : logOf (a ++ b) = logOf a ++ logOf b := by simp [logOf]

section
variable {σ : Type} (o : Ops σ) (st : Settings)

theorem scanLoop_log (p : Nat) (m : List Byte) (hl : m.length = 16) (sub : σ × List Act → List Byte → C (Int × σ × List Act)) (R : List Byte → List Visit → Prop)
    (hsub : ∀ s log x r s', sub (s, log) (m.set p x) = .ok (r, s') → ∃ es, s'.2 = log ++ logOf es ∧ R (m.set p x) es) (ds : List Byte) :
    ∀ (m' : List Byte) (_ : ∀ x, m'.set p x = m.set p x) (s : σ) (log : List Act) (r : Int) (s' : σ × List Act),
    scanLoop o.logged st p sub m' ds (s, log) = .ok (r, s') → ∃ es, s'.2 = log ++ logOf es ∧ LoopRun (st.maxSearchRetry + 1).toNat p R m ds es := by
  induction ds with
  | nil =>
    intro m' _ s log r s' h
    cases h
    exact ⟨[], by simp [logOf], rfl⟩
  | cons d ds ih =>
    intro m' hm' s log r s' h
    rw [scanLoop, hm' d, bind_eq_ok] at h
    obtain ⟨⟨r1, a, s1, log1⟩, h1, h⟩ := h
    have h1' : probeSecondary o.logged st (o.progress s (m.set p d), log ++ [.progress (m.set p d)]) (m.set p d) = .ok (r1, a, s1, log1) := h1
    obtain ⟨seg, e1, e2⟩ := probe_log o st (m.set p d) (by simp [hl]) _ _ _ _ _ h1'
    have hq : Probed (st.maxSearchRetry + 1).toNat (m.set p d) seg := ⟨_, _, e2⟩
    have hc := probing_collided e2
    simp only at e1 h
    subst e1
    have hset : ∀ x, (m.set p d).set p x = m.set p x := by simp
    have cont : ∀ {s1 : σ} {log1 : List Act}, scanLoop o.logged st p sub (m.set p d) ds (s1, log1) = .ok (r, s') → ∃ es, s'.2 = log1 ++ logOf es ∧ LoopRun (st.maxSearchRetry + 1).toNat p R m ds es :=
      fun h => ih _ hset _ _ _ _ h
    by_cases c1 : r1 = PROBE_SINGLE
    · rw [if_pos c1] at h
      obtain ⟨es, g1, g2⟩ := cont h
      refine ⟨(m.set p d, seg) :: es, ?_, seg, es, rfl, hq, .inr ⟨fun h => ?_, .inl g2⟩⟩
      · rw [g1]; simp [logOf]
      · rw [hc.mpr h] at c1; exact absurd c1 (by decide)
    rw [if_neg c1] at h
    by_cases c2 : r1 = PROBE_COLLISION
    · rw [if_pos c2, bind_eq_ok] at h
      obtain ⟨⟨r2, s2, log2⟩, h2, h⟩ := h
      obtain ⟨es1, g1, g2⟩ := hsub _ _ _ _ _ h2
      simp only at h g1
      obtain ⟨es2, g3, g4⟩ := cont h
      refine ⟨(m.set p d, seg) :: (es1 ++ es2), ?_, seg, _, rfl, hq, .inl ⟨hc.mp c2, es1, es2, rfl, g2, g4⟩⟩
      rw [g3, g1]; simp [logOf]
    rw [if_neg c2] at h
    have hnc : ¬ Collided seg := fun h => c2 (hc.mpr h)
    by_cases c3 : r1 = PROBE_NOTHING
    · rw [if_pos c3] at h
      obtain ⟨es, g1, g2⟩ := cont h
      refine ⟨(m.set p d, seg) :: es, ?_, seg, es, rfl, hq, .inr ⟨hnc, .inl g2⟩⟩
      rw [g1]; simp [logOf]
    rw [if_neg c3] at h
    cases h
    exact ⟨[(m.set p d, seg)], by simp [logOf], seg, [], rfl, hq, .inr ⟨hnc, .inr ⟨probing_failed e2 c1 c2 c3, rfl⟩⟩⟩

theorem scanAt_log (n : Nat) (hn : n ≤ 16) : ∀ (m : List Byte) (_ : m.length = 16) (s : σ) (log : List Act) (r : Int) (s' : σ × List Act),
    scanAt o.logged st n (s, log) m = .ok (r, s') → ∃ es, s'.2 = log ++ logOf es ∧ ScanRun (st.maxSearchRetry + 1).toNat n m es := by
  induction n with
  | zero =>
    intro m _ s log r s' h
    cases h
    exact ⟨[], by simp [logOf], (scanRun_zero _ _).mpr rfl⟩
  | succ n ih =>
    intro m hl s log r s' h
    have hrd : rd m (15 - n) = .ok (m.getD (15 - n) 0) := by
      rw [rd_ok (by omega)]
      simp [List.getElem?_eq_getElem (show 15 - n < m.length by omega)]
    rw [scanAt, hrd, ok_bind] at h
    have ih := ih (by omega)
    by_cases hw : m.getD (15 - n) 0 = 102 ∨ m.getD (15 - n) 0 = 70
    · rw [if_pos hw] at h
      obtain ⟨es, g1, g2⟩ := scanLoop_log o st (15 - n) m hl (scanAt o.logged st n) (ScanRun (st.maxSearchRetry + 1).toNat n)
        (fun s log x r s' h => ih _ (by simp [hl]) s log r s' h) decimalDigits m (fun _ => rfl) s log r s' h
      exact ⟨es, g1, (scanRun_succ _ _ _).mpr (.inl ⟨hw.symm, g2⟩)⟩
    rw [if_neg hw] at h
    have hw' : ¬ IsWild (m.getD (15 - n) 0) := fun h => hw h.symm
    by_cases hp : 15 - n < 15
    · rw [if_pos hp, bind_eq_ok] at h
      obtain ⟨⟨r1, s1⟩, h1, h⟩ := h
      cases h
      obtain ⟨es, g1, g2⟩ := ih m hl s log _ _ h1
      exact ⟨es, g1, (scanRun_succ _ _ _).mpr (.inr (.inl ⟨hw', by omega, g2⟩))⟩
    · rw [if_neg hp] at h
      have hn0 : n = 0 := by omega
      subst hn0
      obtain ⟨es, g1, g2⟩ := scanLoop_log o st 15 m hl (scanAt o.logged st 0) (ScanRun (st.maxSearchRetry + 1).toNat 0)
        (fun s log x r s' h => ih _ (by simp [hl]) s log r s' h) [m.getD 15 0] m (fun _ => rfl) s log r s' h
      exact ⟨es, g1, (scanRun_succ _ _ _).mpr (.inr (.inr ⟨hw', rfl, g2⟩))⟩

end

/-! properties of runs -/

theorem takeWhile_quiet (seg l : List Act) (h : NoProgress seg) (hl : ∀ a ∈ l.head?, isProgress a = true) :
    (seg ++ l).takeWhile (fun a => !isProgress a) = seg := by
  induction seg with
  | nil =>
    cases l with
    | nil => rfl
    | cons a l => simp only [List.nil_append, List.takeWhile_cons]; rw [hl a (by simp)]; rfl
  | cons a seg ih =>
    have ha : isProgress a = false := by
      cases a with
      | progress m => exact absurd rfl (h _ (by simp) m)
      | _ => rfl
    simp only [List.cons_append, List.takeWhile_cons, ha, Bool.not_false, if_true]
    rw [ih (fun b hb => h b (by simp [hb]))]

theorem visits_skip (seg l : List Act) (h : NoProgress seg) : visits (seg ++ l) = visits l := by
  induction seg with
  | nil => rfl
  | cons a seg ih =>
    rw [List.cons_append, visits]
    · exact ih (fun b hb => h b (by simp [hb]))
    · intro m hm; exact h a (by simp) m hm

theorem visits_logOf (es : List Visit) (h : ∀ e ∈ es, NoProgress e.2) : visits (logOf es) = es := by
  induction es with
  | nil => rfl
  | cons e es ih =>
    have he := h e (by simp)
    show visits (.progress e.1 :: (e.2 ++ logOf es)) = _
    rw [visits, visits_skip _ _ he, ih (fun x hx => h x (by simp [hx])), takeWhile_quiet _ _ he]
    cases es with
    | nil => simp [logOf]
    | cons e' es => simp [logOf, isProgress]

section
variable {p : Nat} {R : List Byte → List Visit → Prop} {m : List Byte}

/-- induction over the probes of a loop -/
theorem loopRun_all {P : Visit → Prop} (ds : List Byte) (h1 : ∀ d ∈ ds, ∀ seg, Probed N (m.set p d) seg → P (m.set p d, seg)) (h2 : ∀ d ∈ ds, ∀ es, R (m.set p d) es → ∀ e ∈ es, P e) :
    ∀ es, LoopRun N p R m ds es → ∀ e ∈ es, P e := by
  induction ds with
  | nil => intro es h e he; rw [LoopRun] at h; subst h; simp at he
  | cons d ds ih =>
    intro es h e he
    obtain ⟨seg, rest, rfl, hq, h⟩ := h
    have ih := ih (fun d hd => h1 d (by simp [hd])) (fun d hd => h2 d (by simp [hd]))
    rcases List.mem_cons.mp he with rfl | he
    · exact h1 d (by simp) seg hq
    rcases h with ⟨_, e1, e2, rfl, g1, g2⟩ | ⟨_, g | ⟨_, g⟩⟩
    · rcases List.mem_append.mp he with he | he
      · exact h2 d (by simp) _ g1 e he
      · exact ih _ g2 e he
    · exact ih _ g e he
    · subst g; simp at he

theorem loopRun_length (ds : List Byte) (B : Nat) (h2 : ∀ d ∈ ds, ∀ es, R (m.set p d) es → es.length ≤ B) :
    ∀ es, LoopRun N p R m ds es → es.length ≤ ds.length * (1 + B) := by
  induction ds with
  | nil => intro es h; rw [LoopRun] at h; subst h; simp
  | cons d ds ih =>
    intro es h
    obtain ⟨seg, rest, rfl, hq, h⟩ := h
    have ih := ih (fun d hd => h2 d (by simp [hd]))
    simp only [List.length_cons, Nat.add_mul, Nat.one_mul]
    rcases h with ⟨_, e1, e2, rfl, g1, g2⟩ | ⟨_, g | ⟨_, g⟩⟩
    · have := h2 d (by simp) _ g1
      have := ih _ g2
      simp only [List.length_append]; omega
    · have := ih _ g; omega
    · subst g; simp; omega

end

theorem scanRun_quiet (n : Nat) : ∀ m es, ScanRun N n m es → ∀ e ∈ es, NoProgress e.2 := by
  induction n with
  | zero => intro m es h e he; rw [ScanRun] at h; subst h; simp at he
  | succ n ih =>
    intro m es h
    rcases (scanRun_succ _ _ _).mp h with ⟨_, h⟩ | ⟨_, _, h⟩ | ⟨_, _, h⟩
    · exact loopRun_all _ (fun d _ seg ⟨_, _, hs⟩ => probing_quiet hs) (fun d _ es h => ih _ es h) es h
    · exact ih _ _ h
    · exact loopRun_all _ (fun d _ seg ⟨_, _, hs⟩ => probing_quiet hs) (fun d _ es h => by rw [scanRun_zero] at h; subst h; intro e he; simp at he) es h

/-- 10 + 100 + ... -/
def maxProbes : Nat → Nat
  | 0 => 0
  | n + 1 => 10 * (1 + maxProbes n)

theorem scanRun_length (n : Nat) : ∀ m es, ScanRun N n m es → es.length ≤ maxProbes n := by
  induction n with
  | zero => intro m es h; rw [ScanRun] at h; subst h; simp
  | succ n ih =>
    intro m es h
    rcases (scanRun_succ _ _ _).mp h with ⟨_, h⟩ | ⟨_, _, h⟩ | ⟨_, _, h⟩
    · exact loopRun_length _ _ (fun d _ es h => ih _ es h) es h
    · have := ih _ _ h; rw [maxProbes]; omega
    · have := loopRun_length _ 0 (fun d _ es h => by rw [scanRun_zero] at h; subst h; simp) es h
      rw [maxProbes]; simp at this; omega

theorem maxProbes_eq (n : Nat) : 9 * maxProbes n + 10 = 10 ^ (n + 1) := by
  induction n with
  | zero => rfl
  | succ n ih => rw [maxProbes, Nat.pow_succ, ← ih]; omega

theorem dec_digits : ∀ x ∈ decimalDigits, IsDec x := by decide

theorem set_self (m : List Byte) : m.set 15 (m.getD 15 0) = m := by
  apply List.ext_getElem (by simp)
  intro i h1 h2
  rw [List.getElem_set]
  split
  · next h => subst h; simp [h2]
  · rfl

theorem scanRun_refines (n : Nat) (hn : n ≤ 16) : ∀ m, m.length = 16 → ∀ es, ScanRun N n m es → ∀ e ∈ es, Refines (16 - n) m e.1 := by
  induction n with
  | zero => intro m _ es h e he; rw [ScanRun] at h; subst h; simp at he
  | succ n ih =>
    intro m hl es h
    have ih := ih (by omega)
    rcases (scanRun_succ _ _ _).mp h with ⟨hw, h⟩ | ⟨_, _, h⟩ | ⟨_, rfl, hr⟩
    · have hone : ∀ d ∈ decimalDigits, Refines (16 - (n + 1)) m (m.set (15 - n) d) := by
        intro d hd
        refine ⟨by simp [hl], fun i hi => ?_⟩
        rw [getD_set m (15 - n) i d (by omega)]
        by_cases hi : i = 15 - n
        · rw [if_pos hi]; subst hi; exact .inr ⟨by omega, hw, dec_digits d hd⟩
        · rw [if_neg hi]; exact .inl rfl
      refine loopRun_all (P := fun e => Refines (16 - (n + 1)) m e.1) _ (fun d hd seg hs => hone d hd) (fun d hd es h e he => ?_) es h
      obtain ⟨h1, h2⟩ := ih _ (by simp [hl]) es h e he
      refine ⟨h1, fun i hi => ?_⟩
      rcases h2 i hi with h | ⟨g1, g2, g3⟩
      · have := (hone d hd).2 i hi
        rw [← h] at this
        exact this
      · rw [getD_set m (15 - n) i d (by omega), if_neg (by omega)] at g2
        exact .inr ⟨by omega, g2, g3⟩
    · intro e he
      obtain ⟨h1, h2⟩ := ih m hl es h e he
      refine ⟨h1, fun i hi => ?_⟩
      rcases h2 i hi with h | ⟨g1, g2, g3⟩
      · exact .inl h
      · exact .inr ⟨by omega, g2, g3⟩
    · refine loopRun_all (P := fun e => Refines (16 - (0 + 1)) m e.1) _ (fun d hd seg hs => ?_) (fun d _ es h => by rw [scanRun_zero] at h; subst h; intro e he; simp at he) es hr
      rw [List.mem_singleton.mp hd]
      show Refines _ m (m.set 15 (m.getD 15 0))
      rw [set_self m]
      exact ⟨hl, fun i hi => .inl rfl⟩

/-! no mask twice -/

theorem loopRun_nodup {p : Nat} {R : List Byte → List Visit → Prop} {m : List Byte} (hp : p < m.length) (ds : List Byte) (hnd : ds.Nodup)
    (hs : ∀ d ∈ ds, ∀ es, R (m.set p d) es → (es.map Prod.fst).Nodup ∧ ∀ e ∈ es, e.1.getD p 0 = d ∧ e.1 ≠ m.set p d) :
    ∀ es, LoopRun N p R m ds es → (es.map Prod.fst).Nodup ∧ ∀ e ∈ es, e.1.getD p 0 ∈ ds := by
  induction ds with
  | nil => intro es h; rw [LoopRun] at h; subst h; simp
  | cons d ds ih =>
    intro es h
    obtain ⟨seg, rest, rfl, hq, h⟩ := h
    have ih := ih (List.nodup_cons.mp hnd).2 (fun d hd => hs d (by simp [hd]))
    have hdn := (List.nodup_cons.mp hnd).1
    have hpd : (m.set p d).getD p 0 = d := by rw [getD_set m p p d hp, if_pos rfl]
    rcases h with ⟨_, e1, e2, rfl, g1, g2⟩ | ⟨_, g | ⟨_, g⟩⟩
    · obtain ⟨a1, a2⟩ := hs d (by simp) _ g1
      obtain ⟨b1, b2⟩ := ih _ g2
      constructor
      · simp only [List.map_cons, List.map_append, List.nodup_cons, List.nodup_append]
        refine ⟨?_, a1, b1, ?_⟩
        · intro hmem
          rcases List.mem_append.mp hmem with hm | hm
          · obtain ⟨e, he, heq⟩ := List.mem_map.mp hm
            exact (a2 e he).2 heq
          · obtain ⟨e, he, heq⟩ := List.mem_map.mp hm
            have := b2 e he
            rw [heq] at this
            rw [hpd] at this
            exact hdn this
        · intro x hx y hy hxy
          obtain ⟨e, he, rfl⟩ := List.mem_map.mp hx
          obtain ⟨e', he', rfl⟩ := List.mem_map.mp hy
          have c1 := (a2 e he).1
          have c2 := b2 e' he'
          rw [← hxy, c1] at c2
          exact hdn c2
      · intro e he
        rcases List.mem_cons.mp he with rfl | he
        · simp [hp]
        rcases List.mem_append.mp he with he | he
        · rw [(a2 e he).1]; simp
        · exact List.mem_cons_of_mem _ (b2 e he)
    · obtain ⟨b1, b2⟩ := ih _ g
      constructor
      · simp only [List.map_cons, List.nodup_cons]
        refine ⟨fun hm => ?_, b1⟩
        obtain ⟨e, he, heq⟩ := List.mem_map.mp hm
        have := b2 e he
        rw [heq] at this
        rw [hpd] at this
        exact hdn this
      · intro e he
        rcases List.mem_cons.mp he with rfl | he
        · simp [hp]
        · exact List.mem_cons_of_mem _ (b2 e he)
    · subst g
      simp [hp]

/-- later probes keep the digit at position `p` -/
theorem sub_keeps (n : Nat) (hn : n < 16) (m : List Byte) (hl : m.length = 16) (d : Byte) (es : List Visit) (h : ScanRun N n (m.set (15 - n) d) es) (e : Visit) (he : e ∈ es) :
    e.1.getD (15 - n) 0 = d := by
  obtain ⟨_, h2⟩ := scanRun_refines n (by omega) _ (by simp [hl]) es h e he
  rcases h2 (15 - n) (by omega) with h | ⟨g, _⟩
  · rw [h, getD_set m _ _ d (by omega), if_pos rfl]
  · omega

theorem scanRun_strict (n : Nat) (hn : n ≤ 16) : ∀ m, m.length = 16 → IsWild (m.getD 15 0) → ∀ es, ScanRun N n m es → ∀ e ∈ es, e.1 ≠ m := by
  induction n with
  | zero => intro m _ _ es h e he; rw [scanRun_zero] at h; subst h; simp at he
  | succ n ih =>
    intro m hl hw es h
    rcases (scanRun_succ _ _ _).mp h with ⟨hwp, h⟩ | ⟨_, _, h⟩ | ⟨hnw, rfl, _⟩
    · have no : ∀ d ∈ decimalDigits, ∀ x : List Byte, x.getD (15 - n) 0 = d → x ≠ m := by
        intro d hd x hx heq
        rw [heq] at hx
        rw [hx] at hwp
        exact dec_not_wild _ (dec_digits d hd) hwp
      refine loopRun_all (P := fun e => e.1 ≠ m) _ (fun d hd seg hs => no d hd _ ?_) (fun d hd es h e he => no d hd _ (sub_keeps n (by omega) m hl d es h e he)) es h
      show (m.set (15 - n) d).getD (15 - n) 0 = d
      rw [getD_set m _ _ d (by omega), if_pos rfl]
    · exact ih (by omega) m hl hw es h
    · exact absurd hw hnw

theorem scanRun_nodup (n : Nat) (hn : n ≤ 16) : ∀ m, m.length = 16 → (IsWild (m.getD 15 0) ∨ ∀ i, 16 - n ≤ i → i < 15 → ¬ IsWild (m.getD i 0)) →
    ∀ es, ScanRun N n m es → (es.map Prod.fst).Nodup := by
  induction n with
  | zero => intro m _ _ es h; rw [scanRun_zero] at h; subst h; simp
  | succ n ih =>
    intro m hl hw es h
    rcases (scanRun_succ _ _ _).mp h with ⟨hwp, h⟩ | ⟨_, _, h⟩ | ⟨hnw, rfl, hr⟩
    · by_cases hn0 : n = 0
      · subst hn0
        refine (loopRun_nodup (by omega) _ (by decide) (fun d _ es h => ?_) es h).1
        rw [scanRun_zero] at h; subst h; simp
      · have h15 : IsWild (m.getD 15 0) := by
          rcases hw with h | h
          · exact h
          · exact absurd hwp (h _ (by omega) (by omega))
        refine (loopRun_nodup (by omega) _ (by decide) (fun d hd es h => ?_) es h).1
        have h15' : IsWild ((m.set (15 - n) d).getD 15 0) := by
          rw [getD_set m _ _ d (by omega), if_neg (by omega)]; exact h15
        refine ⟨ih (by omega) _ (by simp [hl]) (.inl h15') es h, fun e he => ⟨sub_keeps n (by omega) m hl d es h e he, ?_⟩⟩
        exact scanRun_strict n (by omega) _ (by simp [hl]) h15' es h e he
    · refine ih (by omega) m hl ?_ es h
      rcases hw with h | h
      · exact .inl h
      · exact .inr (fun i h1 h2 => h i (by omega) h2)
    · refine (loopRun_nodup (by omega) _ (by simp) (fun d _ es h => ?_) es hr).1
      rw [scanRun_zero] at h; subst h; simp

/-! recursion only after a collision -/

theorem loopRun_parent {p : Nat} {R : List Byte → List Visit → Prop} {m : List Byte} {P : List Byte → List Byte → Prop} (ds : List Byte)
    (htop : ∀ d ∈ ds, P m (m.set p d))
    (hs : ∀ d ∈ ds, ∀ es, R (m.set p d) es → ∀ a e b, es = a ++ e :: b → P (m.set p d) e.1 ∨ ∃ e' ∈ a, Collided e'.2 ∧ P e'.1 e.1) :
    ∀ es, LoopRun N p R m ds es → ∀ a e b, es = a ++ e :: b → P m e.1 ∨ ∃ e' ∈ a, Collided e'.2 ∧ P e'.1 e.1 := by
  induction ds with
  | nil => intro es h a e b hab; rw [LoopRun] at h; subst h; simp at hab
  | cons d ds ih =>
    intro es h a e b hab
    obtain ⟨seg, rest, rfl, hq, h⟩ := h
    have ih := ih (fun d hd => htop d (by simp [hd])) (fun d hd => hs d (by simp [hd]))
    cases a with
    | nil =>
      simp only [List.nil_append, List.cons.injEq] at hab
      rw [← hab.1]
      exact .inl (htop d (by simp))
    | cons f a =>
      simp only [List.cons_append, List.cons.injEq] at hab
      obtain ⟨rfl, hab⟩ := hab
      have later : (P m e.1 ∨ ∃ e' ∈ a, Collided e'.2 ∧ P e'.1 e.1) → P m e.1 ∨ ∃ e' ∈ (m.set p d, seg) :: a, Collided e'.2 ∧ P e'.1 e.1 := by
        rintro (h | ⟨e', h1, h2⟩)
        · exact .inl h
        · exact .inr ⟨e', List.mem_cons_of_mem _ h1, h2⟩
      rcases h with ⟨hc, e1, e2, rfl, g1, g2⟩ | ⟨_, g | ⟨_, g⟩⟩
      · rcases List.append_eq_append_iff.mp hab with ⟨a', h1, h2⟩ | ⟨b', h1, h2⟩
        · rcases ih _ g2 a' e b h2 with h | ⟨e', h, h'⟩
          · exact .inl h
          · refine .inr ⟨e', List.mem_cons_of_mem _ ?_, h'⟩
            rw [h1]; exact List.mem_append_right _ h
        · cases b' with
          | nil =>
            simp only [List.append_nil, List.nil_append] at h1 h2
            apply later
            rcases ih e2 g2 [] e b h2.symm with h | ⟨e', h, _⟩
            · exact .inl h
            · simp at h
          | cons f' b' =>
            simp only [List.cons_append, List.cons.injEq] at h2
            obtain ⟨rfl, h2⟩ := h2
            rcases hs d (by simp) _ g1 a e b' h1 with h | ⟨e', h, h'⟩
            · exact .inr ⟨(m.set p d, seg), by simp, hc, h⟩
            · exact .inr ⟨e', List.mem_cons_of_mem _ h, h'⟩
      · exact later (ih _ g a e b hab)
      · subst g; simp at hab

theorem restricts_lower {p : Nat} {x y : List Byte} (hx : ¬ IsWild (x.getD p 0)) (h : Restricts (p + 1) x y) : Restricts p x y := by
  have key : ∀ i, p ≤ i → i = p ∨ p + 1 ≤ i := by intro i h; omega
  rcases h with ⟨q, d, ⟨h1, h2, h3, h4⟩, h5, h6⟩ | ⟨h1, h2⟩
  · refine .inl ⟨q, d, ⟨by omega, h2, h3, fun i hi hiq => ?_⟩, h5, h6⟩
    rcases key i hi with rfl | hi
    · exact hx
    · exact h4 i hi hiq
  · refine .inr ⟨fun i hi h16 => ?_, h2⟩
    rcases key i hi with rfl | hi
    · exact hx
    · exact h1 i hi h16

theorem scanRun_parent (n : Nat) (hn : n ≤ 16) : ∀ m, m.length = 16 → ∀ es, ScanRun N n m es → ∀ a e b, es = a ++ e :: b →
    Restricts (16 - n) m e.1 ∨ ∃ e' ∈ a, Collided e'.2 ∧ Restricts (16 - n) e'.1 e.1 := by
  induction n with
  | zero => intro m _ es h a e b hab; rw [scanRun_zero] at h; subst h; simp at hab
  | succ n ih =>
    intro m hl es h
    have hpn : 16 - (n + 1) = 15 - n := by omega
    have hpn1 : 16 - n = 15 - n + 1 := by omega
    rw [hpn]
    rcases (scanRun_succ _ _ _).mp h with ⟨hwp, h⟩ | ⟨hnw, _, h⟩ | ⟨hnw, rfl, hr⟩
    · refine loopRun_parent (P := Restricts (15 - n)) _ (fun d hd => .inl ⟨15 - n, d, ⟨by omega, by omega, hwp, fun i _ _ => by omega⟩, dec_digits d hd, rfl⟩) (fun d hd es h a e b hab => ?_) es h
      have hdw := dec_not_wild _ (dec_digits d hd)
      rcases ih (by omega) _ (by simp [hl]) es h a e b hab with h' | ⟨e', h1, h2, h3⟩
      · rw [hpn1] at h'
        exact .inl (restricts_lower (by rw [getD_set m _ _ d (by omega), if_pos rfl]; exact hdw) h')
      · rw [hpn1] at h3
        refine .inr ⟨e', h1, h2, restricts_lower ?_ h3⟩
        rw [sub_keeps n (by omega) m hl d es h e' (by rw [hab]; exact List.mem_append_left _ h1)]
        exact hdw
    · intro a e b hab
      rcases ih (by omega) _ hl es h a e b hab with h' | ⟨e', h1, h2, h3⟩
      · rw [hpn1] at h'
        exact .inl (restricts_lower hnw h')
      · rw [hpn1] at h3
        refine .inr ⟨e', h1, h2, restricts_lower ?_ h3⟩
        obtain ⟨_, g⟩ := scanRun_refines n (by omega) m hl es h e' (by rw [hab]; exact List.mem_append_left _ h1)
        rcases g (15 - n) (by omega) with g | ⟨g, _⟩
        · rw [g]; exact hnw
        · omega
    · refine loopRun_parent (P := Restricts (15 - 0)) _ (fun d hd => ?_) (fun d hd es h a e b hab => ?_) es hr
      · rw [List.mem_singleton.mp hd, set_self m]
        refine .inr ⟨fun i h1 h2 => ?_, rfl⟩
        have : i = 15 := by omega
        subst this; exact hnw
      · rw [scanRun_zero] at h; subst h; simp at hab

/-! a collision is followed by the restricted masks -/

theorem scanRun_head (n : Nat) (hn : n ≤ 16) : ∀ m, m.length = 16 → ∀ es, ScanRun N n m es → ∀ q, FirstWild (16 - n) m q →
    ∃ seg es', es = (m.set q 48, seg) :: es' := by
  induction n with
  | zero => intro m _ es h q hq; have := hq.1; have := hq.2.1; omega
  | succ n ih =>
    intro m hl es h q hq
    obtain ⟨q1, q2, q3, q4⟩ := hq
    rcases (scanRun_succ _ _ _).mp h with ⟨hwp, h⟩ | ⟨hnw, _, h⟩ | ⟨hnw, rfl, hr⟩
    · have : q = 15 - n := by
        by_cases hlt : 15 - n < q
        · exact absurd hwp (q4 _ (by omega) hlt)
        · omega
      subst this
      obtain ⟨seg, rest, h1, _⟩ := h
      exact ⟨seg, rest, h1⟩
    · refine ih (by omega) m hl es h q ⟨?_, q2, q3, fun i h1 h2 => q4 i (by omega) h2⟩
      by_cases hq : q = 15 - n
      · subst hq; exact absurd q3 hnw
      · omega
    · have : q = 15 := by omega
      subst this; exact absurd q3 hnw

theorem loopRun_continues {p : Nat} {R : List Byte → List Visit → Prop} {m : List Byte} {F : List Byte → Nat → Prop} (ds : List Byte)
    (hhead : ∀ d ∈ ds, ∀ es, R (m.set p d) es → ∀ q, F (m.set p d) q → ∃ seg es', es = ((m.set p d).set q 48, seg) :: es')
    (hs : ∀ d ∈ ds, ∀ es, R (m.set p d) es → ∀ a e b, es = a ++ e :: b → Collided e.2 → ∀ q, F e.1 q → ∃ seg b', b = (e.1.set q 48, seg) :: b') :
    ∀ es, LoopRun N p R m ds es → ∀ a e b, es = a ++ e :: b → Collided e.2 → ∀ q, F e.1 q → ∃ seg b', b = (e.1.set q 48, seg) :: b' := by
  induction ds with
  | nil => intro es h a e b hab; rw [LoopRun] at h; subst h; simp at hab
  | cons d ds ih =>
    intro es h a e b hab hce q hF
    obtain ⟨seg, rest, rfl, hq, h⟩ := h
    have ih := ih (fun d hd => hhead d (by simp [hd])) (fun d hd => hs d (by simp [hd]))
    cases a with
    | nil =>
      simp only [List.nil_append, List.cons.injEq] at hab
      obtain ⟨rfl, rfl⟩ := hab
      rcases h with ⟨hc, e1, e2, rfl, g1, g2⟩ | ⟨hnc, _⟩
      · obtain ⟨seg', es', h'⟩ := hhead d (by simp) _ g1 q hF
        exact ⟨seg', es' ++ e2, by rw [h']; rfl⟩
      · exact absurd hce hnc
    | cons f a =>
      simp only [List.cons_append, List.cons.injEq] at hab
      obtain ⟨rfl, hab⟩ := hab
      rcases h with ⟨hc, e1, e2, rfl, g1, g2⟩ | ⟨_, g | ⟨_, g⟩⟩
      · rcases List.append_eq_append_iff.mp hab with ⟨a', h1, h2⟩ | ⟨b', h1, h2⟩
        · exact ih _ g2 a' e b h2 hce q hF
        · cases b' with
          | nil =>
            simp only [List.nil_append] at h2
            exact ih e2 g2 [] e b h2.symm hce q hF
          | cons f' b' =>
            simp only [List.cons_append, List.cons.injEq] at h2
            obtain ⟨rfl, h2⟩ := h2
            obtain ⟨seg', b1, h'⟩ := hs d (by simp) _ g1 a e b' h1 hce q hF
            exact ⟨seg', b1 ++ e2, by rw [h2, h']; rfl⟩
      · exact ih _ g a e b hab hce q hF
      · subst g; simp at hab

theorem firstWild_raise {p q : Nat} {x : List Byte} (hx : ¬ IsWild (x.getD p 0)) (h : FirstWild p x q) : FirstWild (p + 1) x q := by
  obtain ⟨h1, h2, h3, h4⟩ := h
  refine ⟨?_, h2, h3, fun i hi => h4 i (by omega)⟩
  by_cases h : q = p
  · subst h; exact absurd h3 hx
  · omega

theorem scanRun_continues (n : Nat) (hn : n ≤ 16) : ∀ m, m.length = 16 → ∀ es, ScanRun N n m es → ∀ a e b, es = a ++ e :: b → Collided e.2 →
    ∀ q, FirstWild (16 - n) e.1 q → ∃ seg b', b = (e.1.set q 48, seg) :: b' := by
  induction n with
  | zero => intro m _ es h a e b hab; rw [scanRun_zero] at h; subst h; simp at hab
  | succ n ih =>
    intro m hl es h
    have hpn : 16 - (n + 1) = 15 - n := by omega
    have hpn1 : 16 - n = 15 - n + 1 := by omega
    rw [hpn]
    rcases (scanRun_succ _ _ _).mp h with ⟨hwp, h⟩ | ⟨hnw, _, h⟩ | ⟨hnw, rfl, hr⟩
    · refine loopRun_continues (F := FirstWild (15 - n)) _ (fun d hd es h q hF => ?_) (fun d hd es h a e b hab hc q hF => ?_) es h
      · refine scanRun_head n (by omega) _ (by simp [hl]) es h q ?_
        rw [hpn1]
        exact firstWild_raise (by rw [getD_set m _ _ d (by omega), if_pos rfl]; exact dec_not_wild _ (dec_digits d hd)) hF
      · refine ih (by omega) _ (by simp [hl]) es h a e b hab hc q ?_
        rw [hpn1]
        refine firstWild_raise ?_ hF
        rw [sub_keeps n (by omega) m hl d es h e (by rw [hab]; simp)]
        exact dec_not_wild _ (dec_digits d hd)
    · intro a e b hab hc q hF
      refine ih (by omega) _ hl es h a e b hab hc q ?_
      rw [hpn1]
      refine firstWild_raise ?_ hF
      obtain ⟨_, g⟩ := scanRun_refines n (by omega) m hl es h e (by rw [hab]; simp)
      rcases g (15 - n) (by omega) with g | ⟨g, _⟩
      · rw [g]; exact hnw
      · omega
    · refine loopRun_continues (F := FirstWild (15 - 0)) _ (fun d hd es h q hF => ?_) (fun d hd es h a e b hab hc q hF => ?_) es hr
      · rw [List.mem_singleton.mp hd, set_self m] at hF
        have : q = 15 := by have := hF.1; have := hF.2.1; omega
        subst this
        exact absurd hF.2.2.1 hnw
      · rw [scanRun_zero] at h; subst h; simp at hab

/-! without failures nothing is left out -/

theorem loopRun_all_digits {p : Nat} {R : List Byte → List Visit → Prop} {m : List Byte} (ds : List Byte) :
    ∀ es, (∀ e ∈ es, ¬ Failed e.2) → LoopRun N p R m ds es → ∀ d ∈ ds, ∃ e ∈ es, e.1 = m.set p d := by
  induction ds with
  | nil => intro es _ _ d hd; cases hd
  | cons x ds ih =>
    intro es hf h d hd
    obtain ⟨seg, rest, rfl, hq, h⟩ := h
    rcases List.mem_cons.mp hd with rfl | hd
    · exact ⟨_, List.mem_cons_self, rfl⟩
    rcases h with ⟨_, e1, e2, rfl, g1, g2⟩ | ⟨_, g | ⟨g, _⟩⟩
    · obtain ⟨e, he, h⟩ := ih e2 (fun e he => hf e (by simp [he])) g2 d hd
      exact ⟨e, by simp [he], h⟩
    · obtain ⟨e, he, h⟩ := ih rest (fun e he => hf e (by simp [he])) g d hd
      exact ⟨e, by simp [he], h⟩
    · exact absurd g (hf _ List.mem_cons_self)

/-- every probe of a loop belongs to a digit, or to the recursive call for a digit; and a collision is followed by that call -/
theorem loopRun_parts {p : Nat} {R : List Byte → List Visit → Prop} {m : List Byte} (ds : List Byte) : ∀ es, LoopRun N p R m ds es → ∀ e ∈ es,
    (∃ d ∈ ds, e.1 = m.set p d ∧ (Collided e.2 → ∃ es1, R (m.set p d) es1 ∧ ∀ x ∈ es1, x ∈ es)) ∨
    (∃ d ∈ ds, ∃ es1, R (m.set p d) es1 ∧ e ∈ es1 ∧ ∀ x ∈ es1, x ∈ es) := by
  induction ds with
  | nil => intro es h e he; rw [LoopRun] at h; subst h; simp at he
  | cons d ds ih =>
    intro es h e he
    obtain ⟨seg, rest, rfl, hq, h⟩ := h
    have lift : ∀ e2 : List Visit, (∀ x ∈ e2, x ∈ (m.set p d, seg) :: rest) →
        ((∃ d ∈ ds, e.1 = m.set p d ∧ (Collided e.2 → ∃ es1, R (m.set p d) es1 ∧ ∀ x ∈ es1, x ∈ e2)) ∨
        (∃ d ∈ ds, ∃ es1, R (m.set p d) es1 ∧ e ∈ es1 ∧ ∀ x ∈ es1, x ∈ e2)) →
        (∃ c ∈ d :: ds, e.1 = m.set p c ∧ (Collided e.2 → ∃ es1, R (m.set p c) es1 ∧ ∀ x ∈ es1, x ∈ (m.set p d, seg) :: rest)) ∨
        (∃ c ∈ d :: ds, ∃ es1, R (m.set p c) es1 ∧ e ∈ es1 ∧ ∀ x ∈ es1, x ∈ (m.set p d, seg) :: rest) := by
      intro e2 hsub h
      rcases h with ⟨c, hc, h1, h2⟩ | ⟨c, hc, es1, h1, h2, h3⟩
      · refine .inl ⟨c, by simp [hc], h1, fun hcol => ?_⟩
        obtain ⟨es1, g1, g2⟩ := h2 hcol
        exact ⟨es1, g1, fun x hx => hsub x (g2 x hx)⟩
      · exact .inr ⟨c, by simp [hc], es1, h1, h2, fun x hx => hsub x (h3 x hx)⟩
    rcases List.mem_cons.mp he with rfl | he
    · refine .inl ⟨d, by simp, rfl, fun hc => ?_⟩
      rcases h with ⟨_, e1, e2, rfl, g1, g2⟩ | ⟨hn, _⟩
      · exact ⟨e1, g1, fun x hx => by simp [hx]⟩
      · exact absurd hc hn
    rcases h with ⟨_, e1, e2, rfl, g1, g2⟩ | ⟨_, g | ⟨_, g⟩⟩
    · rcases List.mem_append.mp he with he | he
      · exact .inr ⟨d, by simp, e1, g1, he, fun x hx => by simp [hx]⟩
      · exact lift e2 (fun x hx => by simp [hx]) (ih e2 g2 e he)
    · exact lift rest (fun x hx => by simp [hx]) (ih rest g e he)
    · subst g; cases he

theorem scanRun_complete (n : Nat) (hn : n ≤ 16) : ∀ m, m.length = 16 → ∀ es, (∀ e ∈ es, ¬ Failed e.2) → ScanRun N n m es →
    (∀ q, FirstWild (16 - n) m q → ∀ d ∈ decimalDigits, ∃ e ∈ es, e.1 = m.set q d) ∧ (1 ≤ n → Fixed (16 - n) m → ∃ e ∈ es, e.1 = m) ∧
    ∀ e ∈ es, Collided e.2 → ∀ q, FirstWild (16 - n) e.1 q → ∀ d ∈ decimalDigits, ∃ e' ∈ es, e'.1 = e.1.set q d := by
  induction n with
  | zero =>
    intro m _ es _ h
    rw [scanRun_zero] at h
    subst h
    exact ⟨fun q hq => by have := hq.1; have := hq.2.1; omega, fun h => by omega, fun e he => by simp at he⟩
  | succ n ih =>
    intro m hl es hf h
    have hpn : 16 - (n + 1) = 15 - n := by omega
    have hpn1 : 16 - n = 15 - n + 1 := by omega
    rw [hpn]
    have ih := ih (by omega)
    rcases (scanRun_succ _ _ _).mp h with ⟨hwp, h⟩ | ⟨hnw, hn0, h⟩ | ⟨hnw, rfl, hr⟩
    · refine ⟨?_, ?_, ?_⟩
      · intro q hq d hd
        obtain ⟨q1, q2, q3, q4⟩ := hq
        have : q = 15 - n := by
          by_cases hlt : 15 - n < q
          · exact absurd hwp (q4 _ (by omega) hlt)
          · omega
        subst this
        exact loopRun_all_digits _ es hf h d hd
      · intro _ hfx
        exact absurd hwp (hfx (15 - n) (by omega) (by omega))
      · intro e he hc q hq d hd
        rcases loopRun_parts _ es h e he with ⟨c, hcd, h1, h2⟩ | ⟨c, hcd, es1, h1, h2, h3⟩
        · obtain ⟨es1, g1, g2⟩ := h2 hc
          have hdw := dec_not_wild _ (dec_digits c hcd)
          obtain ⟨e', he', h'⟩ := (ih _ (by simp [hl]) es1 (fun e he => hf e (g2 e he)) g1).1 q (by
            rw [hpn1, ← h1]
            refine firstWild_raise ?_ hq
            rw [h1, getD_set m _ _ c (by omega), if_pos rfl]
            exact hdw) d hd
          exact ⟨e', g2 _ he', by rw [h', h1]⟩
        · have hdw := dec_not_wild _ (dec_digits c hcd)
          obtain ⟨e', he', h'⟩ := (ih _ (by simp [hl]) es1 (fun e he => hf e (h3 e he)) h1).2.2 e h2 hc q (by
            rw [hpn1]
            refine firstWild_raise ?_ hq
            rw [sub_keeps n (by omega) m hl c es1 h1 e h2]
            exact hdw) d hd
          exact ⟨e', h3 _ he', h'⟩
    · obtain ⟨i1, i2, i3⟩ := ih m hl es hf h
      rw [hpn1] at i1 i2 i3
      refine ⟨fun q hq => i1 q (firstWild_raise hnw hq), fun _ hfx => i2 (by omega) (fun i h1 h2 => hfx i (by omega) h2), ?_⟩
      intro e he hc q hq
      refine i3 e he hc q (firstWild_raise ?_ hq)
      obtain ⟨_, g⟩ := scanRun_refines n (by omega) m hl es h e he
      rcases g (15 - n) (by omega) with g | ⟨g, _⟩
      · rw [g]; exact hnw
      · omega
    · refine ⟨?_, ?_, ?_⟩
      · intro q hq
        have : q = 15 := by have := hq.1; have := hq.2.1; omega
        subst this
        exact absurd hq.2.2.1 hnw
      · intro _ _
        obtain ⟨e, he, h⟩ := loopRun_all_digits _ es hf hr (m.getD 15 0) (by simp)
        exact ⟨e, he, by rw [h, set_self m]⟩
      · intro e he hc q hq
        have : q = 15 := by have := hq.1; have := hq.2.1; omega
        subst this
        rcases loopRun_parts _ es hr e he with ⟨c, hcd, h1, _⟩ | ⟨c, _, es1, h1, h2, _⟩
        · rw [List.mem_singleton.mp hcd, set_self m] at h1
          rw [h1] at hq
          exact absurd hq.2.2.1 hnw
        · rw [scanRun_zero] at h1; subst h1; simp at h2

/-- every probe behaves like a probe -/
theorem scanRun_probed (n : Nat) : ∀ m es, ScanRun N n m es → ∀ e ∈ es, Probed N e.1 e.2 := by
  induction n with
  | zero => intro m es h e he; rw [ScanRun] at h; subst h; simp at he
  | succ n ih =>
    intro m es h
    rcases (scanRun_succ _ _ _).mp h with ⟨_, h⟩ | ⟨_, _, h⟩ | ⟨_, _, h⟩
    · exact loopRun_all _ (fun d _ seg hs => hs) (fun d _ es h => ih _ es h) es h
    · exact ih _ _ h
    · exact loopRun_all _ (fun d _ seg hs => hs) (fun d _ es h => by rw [scanRun_zero] at h; subst h; intro e he; simp at he) es h

end Mbus
