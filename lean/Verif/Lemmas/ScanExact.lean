import Verif.Lemmas.Scan
import Verif.Props.Address
/- what a scan with any mask finds -/
namespace Mbus
open Spec

/-- hexadecimal digits, those of the identification number decimal or wildcards -/
def MaskOk (m : List Byte) : Prop := AddressMask m ∧ ∀ c ∈ m.take 8, IdDigit c

theorem MaskOk.hits {m : List Byte} (h : MaskOk m) (d : Device) : hits m d = selects (addressBytes m) d.address := by
  unfold Mbus.hits
  rw [selBytes_eq m h.1.1 h.1.2 h.2]

theorem MaskOk.chosen {m : List Byte} (h : MaskOk m) (devs : List Device) : devs.filter (Mbus.hits m) = Spec.chosen devs m :=
  List.filter_congr fun d _ => h.hits d

theorem MaskOk.set {m : List Byte} (h : MaskOk m) (p : Nat) (x : Byte) (hx : IsDec x) : MaskOk (m.set p x) := by
  have k1 : ∀ c : Byte, IsDec c → IsHex c := by apply forall_byte; decide +kernel
  have k2 : ∀ c : Byte, IsDec c → IdDigit c := by apply forall_byte; decide +kernel
  refine ⟨⟨by simp [h.1.1], fun c hc => ?_⟩, fun c hc => ?_⟩
  · rcases List.mem_or_eq_of_mem_set hc with hc | rfl
    · exact h.1.2 c hc
    · exact k1 _ hx
  · rw [List.take_set] at hc
    rcases List.mem_or_eq_of_mem_set hc with hc | rfl
    · exact h.2 c hc
    · exact k2 _ hx

theorem digits_dec (a b x : Byte) :
    (digitsMatch (UInt8.ofNat (16 * idNibble a + idNibble b)) x = true →
      (IsDec a → hexUpper.getD (x.toNat / 16) 0 = a) ∧ (IsDec b → hexUpper.getD (x.toNat % 16) 0 = b)) := by
  intro h
  obtain ⟨h1, h2⟩ := nib_hi (idNibble a) (idNibble b) (idNibble_lt a) (idNibble_lt b)
  have hx := x.toNat_lt
  have key : ∀ c : Byte, IsDec c → idNibble c ≠ 15 := by apply forall_byte; decide +kernel
  unfold digitsMatch at h
  rw [h1, h2] at h
  simp only [Bool.and_eq_true, Bool.or_eq_true, decide_eq_true_eq] at h
  constructor
  · intro ha
    rcases h.1 with h | h
    · exact absurd h (key a ha)
    · exact ((idNibble_dec a ha _ (by omega)).mp h).symm
  · intro hb
    rcases h.2 with h | h
    · exact absurd h (key b hb)
    · exact ((idNibble_dec b hb _ (by omega)).mp h).symm

theorem byte_dec (a b x : Byte) (ha : IsHex a) (hb : IsHex b) :
    (byteMatch (UInt8.ofNat (16 * digitVal a + digitVal b)) x = true →
      (IsDec a → hexUpper.getD (x.toNat / 16) 0 = a) ∧ (IsDec b → hexUpper.getD (x.toNat % 16) 0 = b)) := by
  intro h
  have hlt : ∀ c : Byte, IsHex c → digitVal c < 16 := by apply forall_byte; decide +kernel
  have h9 : ∀ c : Byte, IsDec c → digitVal c ≤ 9 ∧ hexUpper.getD (digitVal c) 0 = c := by apply forall_byte; decide +kernel
  obtain ⟨h1, h2⟩ := nib_hi (digitVal a) (digitVal b) (hlt a ha) (hlt b hb)
  unfold byteMatch at h
  simp only [Bool.or_eq_true, decide_eq_true_eq] at h
  constructor
  · intro hd
    rcases h with h | h
    · rw [h] at h1
      have e : (255 : UInt8).toNat = 255 := rfl
      have := (h9 a hd).1
      omega
    · rw [← h, h1]; exact (h9 a hd).2
  · intro hd
    rcases h with h | h
    · rw [h] at h2
      have e : (255 : UInt8).toNat = 255 := rfl
      have := (h9 b hd).1
      omega
    · rw [← h, h2]; exact (h9 b hd).2

/-- a selected meter has the decimal digits of the mask -/
theorem hits_digit (m : List Byte) (hm : AddressMask m) (d : Device) (hd : d.address.length = 8) (hh : hits m d = true) (i : Nat) (hi : i < 16)
    (hx : IsDec (m.getD i 0)) : digitAt d i = m.getD i 0 := by
  unfold hits at hh
  unfold digitAt
  obtain ⟨h1, h2⟩ := hm
  generalize d.address = id at hd hh ⊢
  match m, h1, id, hd with
  | [c0, c1, c2, c3, c4, c5, c6, c7, c8, c9, c10, c11, c12, c13, c14, c15], _, [b0, b1, b2, b3, b4, b5, b6, b7], _ =>
    simp only [List.mem_cons, List.not_mem_nil, or_false, forall_eq_or_imp, forall_eq] at h2
    obtain ⟨-, -, -, -, -, -, -, -, x8, x9, x10, x11, x12, x13, x14, x15⟩ := h2
    simp only [selects, selBytes, List.take_succ_cons, List.take_zero, List.drop_succ_cons, List.drop_zero, List.zip_cons_cons, List.zip_nil_right,
      List.all_cons, List.all_nil, Bool.and_true, Bool.and_eq_true] at hh
    obtain ⟨⟨a0, a1, a2, a3⟩, a4, a5, a6, a7⟩ := hh
    have a0 := digits_dec _ _ _ a0
    have a1 := digits_dec _ _ _ a1
    have a2 := digits_dec _ _ _ a2
    have a3 := digits_dec _ _ _ a3
    have a4 := byte_dec _ _ _ x8 x9 a4
    have a5 := byte_dec _ _ _ x10 x11 a5
    have a6 := byte_dec _ _ _ x12 x13 a6
    have a7 := byte_dec _ _ _ x14 x15 a7
    simp only [addressText, swapId, List.take_succ_cons, List.take_zero, List.reverse_cons, List.reverse_nil, List.nil_append, List.cons_append,
      List.drop_succ_cons, List.drop_zero, List.flatMap_cons, List.flatMap_nil, hexPair, List.append_nil]
    match i, hi with
    | 0, _ => exact a3.1 hx
    | 1, _ => exact a3.2 hx
    | 2, _ => exact a2.1 hx
    | 3, _ => exact a2.2 hx
    | 4, _ => exact a1.1 hx
    | 5, _ => exact a1.2 hx
    | 6, _ => exact a0.1 hx
    | 7, _ => exact a0.2 hx
    | 8, _ => exact a4.1 hx
    | 9, _ => exact a4.2 hx
    | 10, _ => exact a5.1 hx
    | 11, _ => exact a5.2 hx
    | 12, _ => exact a6.1 hx
    | 13, _ => exact a6.2 hx
    | 14, _ => exact a7.1 hx
    | 15, _ => exact a7.2 hx

/-! masks tried -/

theorem restricts_ok {pos : Nat} {m m' : List Byte} (h : MaskOk m) (hr : Restricts pos m m') :
    MaskOk m' ∧ ∀ i, i < 16 → IsDec (m.getD i 0) → m'.getD i 0 = m.getD i 0 := by
  have hl := h.1.1
  rcases hr with ⟨q, x, ⟨h1, h2, h3, h4⟩, hx, rfl⟩ | ⟨_, rfl⟩
  · refine ⟨h.set q x hx, fun i hi hd => ?_⟩
    rw [getD_set m q i x (by omega)]
    by_cases e : i = q
    · subst e; exact absurd h3 (dec_not_wild _ hd)
    · rw [if_neg e]
  · exact ⟨h, fun _ _ _ => rfl⟩

theorem tried_ok {devs : List Device} {pos : Nat} {m m' : List Byte} (h : MaskOk m) (ht : Tried devs pos m m') :
    MaskOk m' ∧ ∀ i, i < 16 → IsDec (m.getD i 0) → m'.getD i 0 = m.getD i 0 := by
  induction ht with
  | here hr => exact restricts_ok h hr
  | inside hr _ _ ih =>
    obtain ⟨h1, h2⟩ := restricts_ok h hr
    obtain ⟨h3, h4⟩ := ih h1
    refine ⟨h3, fun i hi hd => ?_⟩
    have e := h2 i hi hd
    rw [h4 i hi (by rw [e]; exact hd), e]

/-- positions without a wildcard can be skipped -/
theorem restricts_skip {pos pos' : Nat} (hle : pos ≤ pos') {m : List Byte} (hw : ∀ i, pos ≤ i → i < pos' → ¬ IsWild (m.getD i 0)) (m' : List Byte) :
    Restricts pos m m' ↔ Restricts pos' m m' := by
  constructor
  · rintro (⟨q, x, ⟨h1, h2, h3, h4⟩, hx, rfl⟩ | ⟨h, rfl⟩)
    · refine .inl ⟨q, x, ⟨?_, h2, h3, fun i hi => h4 i (by omega)⟩, hx, rfl⟩
      apply Classical.byContradiction
      intro hn
      exact hw q h1 (by omega) h3
    · exact .inr ⟨fun i hi => h i (by omega), rfl⟩
  · rintro (⟨q, x, ⟨h1, h2, h3, h4⟩, hx, rfl⟩ | ⟨h, rfl⟩)
    · refine .inl ⟨q, x, ⟨by omega, h2, h3, fun i h5 h6 => ?_⟩, hx, rfl⟩
      by_cases e : i < pos'
      · exact hw i h5 e
      · exact h4 i (by omega) h6
    · refine .inr ⟨fun i h1 h2 => ?_, rfl⟩
      by_cases e : i < pos'
      · exact hw i h1 e
      · exact h i (by omega) h2

theorem restricts_keeps {pos pos' : Nat} {m m' : List Byte} (hw : ∀ i, pos ≤ i → i < pos' → ¬ IsWild (m.getD i 0)) (hl : m.length = 16)
    (hr : Restricts pos' m m') : (∀ i, pos ≤ i → i < pos' → ¬ IsWild (m'.getD i 0)) ∧ m'.length = 16 := by
  rcases hr with ⟨q, x, ⟨h1, h2, h3, h4⟩, hx, rfl⟩ | ⟨_, rfl⟩
  · refine ⟨fun i h5 h6 => ?_, by simp [hl]⟩
    rw [getD_set m q i x (by omega), if_neg (by omega)]
    exact hw i h5 h6
  · exact ⟨hw, hl⟩

theorem tried_skip {devs : List Device} {pos pos' : Nat} (hle : pos ≤ pos') {m m' : List Byte} (hl : m.length = 16)
    (hw : ∀ i, pos ≤ i → i < pos' → ¬ IsWild (m.getD i 0)) : Tried devs pos m m' ↔ Tried devs pos' m m' := by
  constructor
  · intro h
    induction h with
    | here h => exact .here ((restricts_skip hle hw _).mp h)
    | inside h1 h2 _ ih =>
      have h1 := (restricts_skip hle hw _).mp h1
      have hk := restricts_keeps hw hl h1
      exact .inside h1 h2 (ih hk.2 hk.1)
  · intro h
    induction h with
    | here h => exact .here ((restricts_skip hle hw _).mpr h)
    | inside h1 h2 _ ih =>
      have hk := restricts_keeps hw hl h1
      exact .inside ((restricts_skip hle hw _).mpr h1) h2 (ih hk.2 hk.1)

/-- what is found with the first wildcard at `p` -/
theorem isolated_wild {devs : List Device} {p : Nat} (hp : p < 16) {m : List Byte} (hl : m.length = 16) (hw : IsWild (m.getD p 0)) (d : Device) :
    Isolated devs p m d ↔ ∃ x, IsDec x ∧ (chosen devs (m.set p x) = [d] ∨ (2 ≤ (chosen devs (m.set p x)).length ∧ Isolated devs (p + 1) (m.set p x) d)) := by
  have hr : ∀ m', Restricts p m m' ↔ ∃ x, IsDec x ∧ m' = m.set p x := by
    intro m'
    constructor
    · rintro (⟨q, x, ⟨h1, h2, h3, h4⟩, hx, rfl⟩ | ⟨h, rfl⟩)
      · have : q = p := by
          apply Classical.byContradiction
          intro hn
          exact h4 p (by omega) (by omega) hw
        subst this
        exact ⟨x, hx, rfl⟩
      · exact absurd hw (h p (by omega) hp)
    · rintro ⟨x, hx, rfl⟩
      exact .inl ⟨p, x, ⟨by omega, hp, hw, fun i h1 h2 => by omega⟩, hx, rfl⟩
  have hs : ∀ x, IsDec x → ∀ m', Tried devs p (m.set p x) m' ↔ Tried devs (p + 1) (m.set p x) m' := by
    intro x hx m'
    refine tried_skip (by omega) (by simp [hl]) ?_
    intro i h1 h2
    have : i = p := by omega
    subst this
    rw [getD_set m i i x (by omega), if_pos rfl]
    exact dec_not_wild x hx
  constructor
  · rintro ⟨m', ht, h1⟩
    cases ht with
    | here h =>
      obtain ⟨x, hx, rfl⟩ := (hr _).mp h
      exact ⟨x, hx, .inl h1⟩
    | inside h h2 ht =>
      obtain ⟨x, hx, rfl⟩ := (hr _).mp h
      exact ⟨x, hx, .inr ⟨h2, m', (hs x hx m').mp ht, h1⟩⟩
  · rintro ⟨x, hx, h | ⟨h2, m', ht, h1⟩⟩
    · exact ⟨_, .here ((hr _).mpr ⟨x, hx, rfl⟩), h⟩
    · exact ⟨m', .inside ((hr _).mpr ⟨x, hx, rfl⟩) h2 ((hs x hx m').mpr ht), h1⟩

theorem isolated_skip {devs : List Device} {p : Nat} {m : List Byte} (hl : m.length = 16) (hw : ¬ IsWild (m.getD p 0)) (d : Device) :
    Isolated devs p m d ↔ Isolated devs (p + 1) m d := by
  have : ∀ m', Tried devs p m m' ↔ Tried devs (p + 1) m m' := fun m' => tried_skip (by omega) hl (by
    intro i h1 h2
    have : i = p := by omega
    subst this
    exact hw)
  unfold Isolated
  simp only [this]

/-- a mask without wildcards -/
theorem isolated_fixed {devs : List Device} {p : Nat} {m : List Byte} (hf : Fixed p m) (d : Device) :
    Isolated devs p m d ↔ chosen devs m = [d] := by
  have hr : ∀ m', Restricts p m m' ↔ m' = m := by
    intro m'
    constructor
    · rintro (⟨q, x, ⟨h1, h2, h3, h4⟩, hx, rfl⟩ | ⟨h, rfl⟩)
      · exact absurd h3 (hf q h1 h2)
      · rfl
    · rintro rfl; exact .inr ⟨hf, rfl⟩
  have ht : ∀ m1 m', Tried devs p m1 m' → m1 = m → m' = m := by
    intro m1 m' h
    induction h with
    | here h => intro e; subst e; exact (hr _).mp h
    | inside h _ _ ih => intro e; subst e; exact ih ((hr _).mp h)
  constructor
  · rintro ⟨m', h1, h2⟩
    rw [ht _ _ h1 rfl] at h2
    exact h2
  · intro h
    exact ⟨m, .here ((hr _).mpr rfl), h⟩

/-- the meters isolated below a mask have its decimal digits -/
theorem isolated_digit {devs : List Device} (hlen : ∀ d ∈ devs, d.address.length = 8) {p : Nat} {m : List Byte} (hm : MaskOk m) {d : Device}
    (h : Isolated devs p m d) (i : Nat) (hi : i < 16) (hx : IsDec (m.getD i 0)) : d ∈ devs ∧ digitAt d i = m.getD i 0 := by
  obtain ⟨m', ht, h1⟩ := h
  obtain ⟨h2, h3⟩ := tried_ok hm ht
  have hd : d ∈ chosen devs m' := by rw [h1]; simp
  obtain ⟨h4, h5⟩ := List.mem_filter.mp hd
  rw [← h2.hits] at h5
  have e := h3 i hi hx
  refine ⟨h4, ?_⟩
  rw [hits_digit m' h2.1 d (hlen d h4) h5 i hi (by rw [e]; exact hx), e]

theorem chosen_digit {devs : List Device} (hlen : ∀ d ∈ devs, d.address.length = 8) {m : List Byte} (hm : MaskOk m) {d : Device}
    (h : chosen devs m = [d]) (i : Nat) (hi : i < 16) (hx : IsDec (m.getD i 0)) : d ∈ devs ∧ digitAt d i = m.getD i 0 := by
  have hd : d ∈ chosen devs m := by rw [h]; simp
  obtain ⟨h4, h5⟩ := List.mem_filter.mp hd
  rw [← hm.hits] at h5
  exact ⟨h4, hits_digit m hm.1 d (hlen d h4) h5 i hi hx⟩

section
variable {S : Type} {O : Ops S} {st : Settings} {I : S → Prop} {founds : S → List (List Byte × Frame)} {devs : List Device}
  (hP : Probes O st I founds devs) (hlen : ∀ d ∈ devs, d.address.length = 8)
include hP hlen

omit hlen in
/-- one digit -/
theorem scanLoop_step (p : Nat) (m m' : List Byte) (x : Byte) (ds : List Byte) (hm : MaskOk (m.set p x)) (hm' : m'.set p x = m.set p x)
    (sub : S → List Byte → C (Int × S)) (F : Device → Prop) (s : S) (hI : I s)
    (hsub : 2 ≤ (chosen devs (m.set p x)).length → ∀ s, I s → ∃ r s' fs es, sub s (m.set p x) = .ok (r, s') ∧ I s' ∧ founds s' = founds s ++ fs ∧
      Pointwise Reports fs es ∧ es.Nodup ∧ ∀ d, d ∈ es ↔ F d) :
    ∃ s2 fs es, I s2 ∧ founds s2 = founds s ++ fs ∧ Pointwise Reports fs es ∧ es.Nodup ∧
      (∀ d, d ∈ es ↔ chosen devs (m.set p x) = [d] ∨ (2 ≤ (chosen devs (m.set p x)).length ∧ F d)) ∧
      scanLoop O st p sub m' (x :: ds) s = scanLoop O st p sub (m.set p x) ds s2 := by
  obtain ⟨hI1, hf1⟩ := hP.progress s (m.set p x) hI
  obtain ⟨r, a, s1, fs1, hpr, hI2, hf2, hr⟩ := hP.probe (O.progress s (m.set p x)) (m.set p x) hI1 hm.1
  rw [hf1] at hf2
  have hstep : scanLoop O st p sub m' (x :: ds) s =
      if r = PROBE_SINGLE then scanLoop O st p sub (m.set p x) ds s1
      else if r = PROBE_COLLISION then sub s1 (m.set p x) >>= fun q => scanLoop O st p sub (m.set p x) ds q.2
      else if r = PROBE_NOTHING then scanLoop O st p sub (m.set p x) ds s1
      else .ok (-1, s1) := by
    rw [scanLoop, hm']
    simp only
    rw [hpr, ok_bind]
  rw [hm.chosen] at hr
  generalize chosen devs (m.set p x) = l at hr hsub ⊢
  match l with
  | [] =>
    obtain ⟨rfl, rfl⟩ := hr
    refine ⟨s1, [], [], hI2, hf2, .nil, by simp, by simp, ?_⟩
    rw [hstep, if_neg (by decide), if_neg (by decide), if_pos (by decide)]
  | [d] =>
    obtain ⟨rfl, hpw⟩ := hr
    refine ⟨s1, fs1, [d], hI2, hf2, hpw, by simp, fun e => by simp [eq_comm], ?_⟩
    rw [hstep, if_pos (by decide)]
  | d1 :: d2 :: l =>
    obtain ⟨rfl, rfl⟩ := hr
    obtain ⟨r', s2, fs, es, e1, e2, e3, e4, e5, e6⟩ := hsub (by simp) s1 hI2
    refine ⟨s2, fs, es, e2, by rw [e3, hf2]; simp, e4, e5, fun d => by simp [e6], ?_⟩
    rw [hstep, if_neg (by decide), if_pos (by decide), e1, ok_bind]

/-- the loop over the digits `ds` at position `p` -/
theorem scanLoop_isolates (p : Nat) (hp : p < 16) (m : List Byte) (hm : MaskOk m) (sub : S → List Byte → C (Int × S))
    (hsub : ∀ x, IsDec x → 2 ≤ (chosen devs (m.set p x)).length → ∀ s, I s → ∃ r s' fs es, sub s (m.set p x) = .ok (r, s') ∧ I s' ∧ founds s' = founds s ++ fs ∧
      Pointwise Reports fs es ∧ es.Nodup ∧ ∀ d, d ∈ es ↔ Isolated devs (p + 1) (m.set p x) d) :
    ∀ (ds : List Byte), ds.Nodup → (∀ x ∈ ds, IsDec x) → ∀ (m' : List Byte) (_ : ∀ x, m'.set p x = m.set p x) (s : S), I s →
    ∃ s' fs es, scanLoop O st p sub m' ds s = .ok (0, s') ∧ I s' ∧ founds s' = founds s ++ fs ∧ Pointwise Reports fs es ∧ es.Nodup ∧
      ∀ d, d ∈ es ↔ ∃ x ∈ ds, chosen devs (m.set p x) = [d] ∨ (2 ≤ (chosen devs (m.set p x)).length ∧ Isolated devs (p + 1) (m.set p x) d) := by
  intro ds
  induction ds with
  | nil =>
    intro _ _ m' _ s hI
    exact ⟨s, [], [], rfl, hI, by simp, .nil, by simp, by simp⟩
  | cons x ds ih =>
    intro hnd hds m' hm' s hI
    have hx := hds x (by simp)
    obtain ⟨hxn, hnd'⟩ := List.nodup_cons.mp hnd
    obtain ⟨s2, fs, es, h1, h2, h3, h4, h5, h6⟩ := scanLoop_step hP p m m' x ds (hm.set p x hx) (hm' x) sub _ s hI (hsub x hx)
    obtain ⟨s3, fs', es', e1, e2, e3, e4, e5, e6⟩ := ih hnd' (fun y hy => hds y (by simp [hy])) (m.set p x) (by simp) s2 h1
    have hl := hm.1.1
    have hdig : ∀ y, IsDec y → ∀ d, (chosen devs (m.set p y) = [d] ∨ (2 ≤ (chosen devs (m.set p y)).length ∧ Isolated devs (p + 1) (m.set p y) d)) →
        digitAt d p = y := by
      intro y hy d h
      have hg : (m.set p y).getD p 0 = y := by rw [getD_set m p p y (by omega), if_pos rfl]
      rcases h with h | ⟨_, h⟩
      · rw [(chosen_digit hlen (hm.set p y hy) h p hp (by rw [hg]; exact hy)).2, hg]
      · rw [(isolated_digit hlen (hm.set p y hy) h p hp (by rw [hg]; exact hy)).2, hg]
    refine ⟨s3, fs ++ fs', es ++ es', by rw [h6]; exact e1, e2, by rw [e3, h2]; simp, pointwise_append h3 e4, ?_, ?_⟩
    · rw [List.nodup_append]
      refine ⟨h4, e5, ?_⟩
      rintro d hd e he rfl
      have d1 := hdig x hx d ((h5 d).mp hd)
      obtain ⟨y, hy, h⟩ := (e6 d).mp he
      have d2 := hdig y (hds y (by simp [hy])) d h
      exact hxn (by rw [← d1, d2]; exact hy)
    · intro d
      rw [List.mem_append, h5, e6]
      simp

/-- what a scan from position `16 - n` finds -/
theorem scanAt_isolates (n : Nat) (hn : n ≤ 15) : ∀ (m : List Byte), MaskOk m → ∀ s, I s →
    ∃ s' fs es, scanAt O st (n + 1) s m = .ok (0, s') ∧ I s' ∧ founds s' = founds s ++ fs ∧ Pointwise Reports fs es ∧ es.Nodup ∧
      ∀ d, d ∈ es ↔ Isolated devs (15 - n) m d := by
  induction n with
  | zero =>
    intro m hm s hI
    have hl := hm.1.1
    have hrd : rd m 15 = .ok (m.getD 15 0) := by
      rw [rd_ok (by omega)]
      simp [List.getElem?_eq_getElem (show 15 < m.length by omega)]
    rw [scanAt, Nat.sub_zero, hrd, ok_bind]
    have hsub : ∀ x, 2 ≤ (chosen devs (m.set 15 x)).length → ∀ s, I s → ∃ r s' fs es, scanAt O st 0 s (m.set 15 x) = .ok (r, s') ∧ I s' ∧
        founds s' = founds s ++ fs ∧ Pointwise Reports fs es ∧ es.Nodup ∧ ∀ d, d ∈ es ↔ Isolated devs (15 + 1) (m.set 15 x) d := by
      intro x h2 s hI
      refine ⟨0, s, [], [], rfl, hI, by simp, .nil, by simp, fun d => ?_⟩
      rw [isolated_fixed (fun i h1 h2 => by omega)]
      constructor
      · intro h; simp at h
      · intro h; rw [h] at h2; simp at h2
    by_cases hw : IsWild (m.getD 15 0)
    · rw [if_pos (by rcases hw with h | h; exact .inr h; exact .inl h)]
      obtain ⟨s', fs, es, e1, e2, e3, e4, e5, e6⟩ := scanLoop_isolates hP hlen 15 (by omega) m hm (scanAt O st 0) (fun x _ => hsub x)
        decimalDigits (by decide) (by decide) m (fun _ => rfl) s hI
      refine ⟨s', fs, es, e1, e2, e3, e4, e5, fun d => ?_⟩
      rw [e6, isolated_wild (by omega) hl hw]
      have hall : ∀ c : Byte, c ∈ decimalDigits ↔ IsDec c := by apply forall_byte; decide +kernel
      simp only [hall]
    · rw [if_neg (by rintro (h | h); exact hw (.inr h); exact hw (.inl h)), if_neg (by omega)]
      have hset : m.set 15 (m.getD 15 0) = m := by
        rw [List.getD_eq_getElem?_getD, List.getElem?_eq_getElem (show 15 < m.length by omega)]
        exact List.set_getElem_self _
      obtain ⟨s2, fs, es, h1, h2, h3, h4, h5, h6⟩ := scanLoop_step hP 15 m m (m.getD 15 0) [] (by rw [hset]; exact hm) rfl (scanAt O st 0) _ s hI (hsub _)
      rw [hset] at h5 h6
      refine ⟨s2, fs, es, h6, h1, h2, h3, h4, fun d => ?_⟩
      rw [h5]
      have hf : Fixed 15 m := by
        intro i h1 h2
        have : i = 15 := by omega
        subst this; exact hw
      rw [isolated_fixed hf, isolated_fixed (fun i h1 h2 => by omega)]
      constructor
      · rintro (h | ⟨_, h⟩) <;> exact h
      · exact .inl
  | succ n ih =>
    intro m hm s hI
    have hl := hm.1.1
    obtain ⟨p, hp⟩ : ∃ p, p = 15 - (n + 1) := ⟨_, rfl⟩
    have hp1 : 15 - n = p + 1 := by omega
    have ih := ih (by omega)
    rw [hp1] at ih
    rw [← hp]
    have hrd : rd m p = .ok (m.getD p 0) := by
      rw [rd_ok (by omega)]
      simp [List.getElem?_eq_getElem (show p < m.length by omega)]
    rw [scanAt, ← hp, hrd, ok_bind]
    by_cases hw : IsWild (m.getD p 0)
    · rw [if_pos (by rcases hw with h | h; exact .inr h; exact .inl h)]
      obtain ⟨s', fs, es, e1, e2, e3, e4, e5, e6⟩ := scanLoop_isolates hP hlen p (by omega) m hm (scanAt O st (n + 1)) (fun x hx _ s hI => by
          obtain ⟨s', fs, es, h⟩ := ih (m.set p x) (hm.set p x hx) s hI
          exact ⟨0, s', fs, es, h⟩)
        decimalDigits (by decide) (by decide) m (fun _ => rfl) s hI
      refine ⟨s', fs, es, e1, e2, e3, e4, e5, fun d => ?_⟩
      rw [e6, isolated_wild (by omega) hl hw]
      have hall : ∀ c : Byte, c ∈ decimalDigits ↔ IsDec c := by apply forall_byte; decide +kernel
      simp only [hall]
    · rw [if_neg (by rintro (h | h); exact hw (.inr h); exact hw (.inl h)), if_pos (by omega)]
      obtain ⟨s', fs, es, e1, e2, e3, e4, e5, e6⟩ := ih m hm s hI
      refine ⟨s', fs, es, by rw [e1, ok_bind], e2, e3, e4, e5, fun d => ?_⟩
      rw [e6, isolated_skip hl hw]

end

end Mbus
