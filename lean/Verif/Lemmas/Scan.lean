import Verif.Spec.Scan
import Verif.Spec.Deliver
import Verif.Spec.Select
import Verif.Lemmas.Address
/- the scan, given what a probe does -/
namespace Mbus
open Spec

/-- i-th digit of the address text of a device -/
def digitAt (d : Device) (i : Nat) : Byte := (addressText d.address).getD i 0

/-- the device is selected by the mask -/
def hits (m : List Byte) (d : Device) : Bool := selects (selBytes m) d.address

theorem idMask_address (m : List Byte) (hm : IdMask m) : AddressMask m := by
  refine ⟨hm.length, fun c hc => ?_⟩
  obtain ⟨i, hi, rfl⟩ := List.mem_iff_getElem.mp hc
  have hx : ∀ c : Byte, IsDec c ∨ IsWild c → IsHex c := by apply forall_byte; decide +kernel
  have hl := hm.length
  have e : m[i] = m.getD i 0 := by simp [hi]
  rw [e]
  by_cases h8 : i < 8
  · exact hx _ (hm.id i h8)
  · exact hx _ (.inr (hm.rest i (by omega) (by omega)))

theorem nib_hi (a b : Nat) (ha : a < 16) (hb : b < 16) : (UInt8.ofNat (16 * a + b)).toNat / 16 = a ∧ (UInt8.ofNat (16 * a + b)).toNat % 16 = b := by
  rw [UInt8.toNat_ofNat_of_lt' (show _ < 256 by omega)]
  omega

theorem idNibble_wild (c : Byte) (h : IsDec c ∨ IsWild c) : idNibble c = 15 ↔ IsWild c := by
  revert c; apply forall_byte; decide +kernel

theorem idNibble_dec (c : Byte) (h : IsDec c) (v : Nat) (hv : v < 16) : idNibble c = v ↔ c = hexUpper.getD v 0 := by
  have key : ∀ v : Fin 16, ∀ c : Byte, IsDec c → (idNibble c = v.val ↔ c = hexUpper.getD v.val 0) := by
    intro v
    apply forall_byte
    revert v
    decide +kernel
  exact key ⟨v, hv⟩ c h

theorem nib_match (c : Byte) (h : IsDec c ∨ IsWild c) (v : Nat) (hv : v < 16) :
    (idNibble c = 15 ∨ idNibble c = v) ↔ (IsWild c ∨ c = hexUpper.getD v 0) := by
  rw [idNibble_wild c h]
  by_cases hw : IsWild c
  · exact ⟨fun _ => .inl hw, fun _ => .inl hw⟩
  · rcases h with h | h
    · exact or_congr Iff.rfl (idNibble_dec c h v hv)
    · exact absurd h hw

theorem digitsMatch_iff (a b x : Byte) (ha : IsDec a ∨ IsWild a) (hb : IsDec b ∨ IsWild b) :
    digitsMatch (UInt8.ofNat (16 * idNibble a + idNibble b)) x = true ↔
      (IsWild a ∨ a = hexUpper.getD (x.toNat / 16) 0) ∧ (IsWild b ∨ b = hexUpper.getD (x.toNat % 16) 0) := by
  obtain ⟨h1, h2⟩ := nib_hi (idNibble a) (idNibble b) (idNibble_lt a) (idNibble_lt b)
  unfold digitsMatch
  rw [h1, h2]
  have hx := x.toNat_lt
  rw [← nib_match a ha (x.toNat / 16) (by omega), ← nib_match b hb (x.toNat % 16) (by omega)]
  simp

theorem wild_byte (a b : Byte) (ha : IsWild a) (hb : IsWild b) (x : Byte) : byteMatch (UInt8.ofNat (16 * digitVal a + digitVal b)) x = true := by
  have : ∀ c : Byte, IsWild c → digitVal c = 15 := by apply forall_byte; decide +kernel
  rw [this a ha, this b hb]
  simp [byteMatch]

theorem hits_iff (m : List Byte) (hm : IdMask m) (d : Device) (hd : d.address.length = 8) :
    hits m d = true ↔ ∀ i, i < 8 → IsWild (m.getD i 0) ∨ m.getD i 0 = digitAt d i := by
  obtain ⟨h1, h2, h3⟩ := hm
  unfold hits digitAt
  generalize d.address = id at hd ⊢
  match m, h1, id, hd with
  | [c0, c1, c2, c3, c4, c5, c6, c7, c8, c9, c10, c11, c12, c13, c14, c15], _, [b0, b1, b2, b3, b4, b5, b6, b7], _ =>
    have e0 := h2 0 (by omega)
    have e1 := h2 1 (by omega)
    have e2 := h2 2 (by omega)
    have e3 := h2 3 (by omega)
    have e4 := h2 4 (by omega)
    have e5 := h2 5 (by omega)
    have e6 := h2 6 (by omega)
    have e7 := h2 7 (by omega)
    have w8 := h3 8 (by omega) (by omega)
    have w9 := h3 9 (by omega) (by omega)
    have w10 := h3 10 (by omega) (by omega)
    have w11 := h3 11 (by omega) (by omega)
    have w12 := h3 12 (by omega) (by omega)
    have w13 := h3 13 (by omega) (by omega)
    have w14 := h3 14 (by omega) (by omega)
    have w15 := h3 15 (by omega) (by omega)
    simp only [List.getD_cons_zero, List.getD_cons_succ] at e0 e1 e2 e3 e4 e5 e6 e7 w8 w9 w10 w11 w12 w13 w14 w15
    simp only [selects, selBytes, List.take_succ_cons, List.take_zero, List.drop_succ_cons, List.drop_zero, List.zip_cons_cons, List.zip_nil_right,
      List.all_cons, List.all_nil, Bool.and_true, Bool.and_eq_true, wild_byte c8 c9 w8 w9, wild_byte c10 c11 w10 w11, wild_byte c12 c13 w12 w13,
      wild_byte c14 c15 w14 w15, digitsMatch_iff c6 c7 b0 e6 e7, digitsMatch_iff c4 c5 b1 e4 e5, digitsMatch_iff c2 c3 b2 e2 e3,
      digitsMatch_iff c0 c1 b3 e0 e1]
    simp only [addressText, swapId, List.take_succ_cons, List.take_zero, List.reverse_cons, List.reverse_nil, List.nil_append, List.cons_append,
      List.drop_succ_cons, List.drop_zero, List.flatMap_cons, List.flatMap_nil, hexPair, List.append_nil]
    constructor
    · rintro ⟨⟨a6, a7⟩, ⟨a4, a5⟩, ⟨a2, a3⟩, ⟨a0, a1⟩⟩ i hi
      have : i = 0 ∨ i = 1 ∨ i = 2 ∨ i = 3 ∨ i = 4 ∨ i = 5 ∨ i = 6 ∨ i = 7 := by omega
      rcases this with rfl | rfl | rfl | rfl | rfl | rfl | rfl | rfl
      · exact a0
      · exact a1
      · exact a2
      · exact a3
      · exact a4
      · exact a5
      · exact a6
      · exact a7
    · intro h
      exact ⟨⟨h 6 (by omega), h 7 (by omega)⟩, ⟨h 4 (by omega), h 5 (by omega)⟩, ⟨h 2 (by omega), h 3 (by omega)⟩, ⟨h 0 (by omega), h 1 (by omega)⟩⟩

theorem getD_set (m : List Byte) (p i : Nat) (d : Byte) (hp : p < m.length) : (m.set p d).getD i 0 = if i = p then d else m.getD i 0 := by
  simp only [List.getD_eq_getElem?_getD, List.getElem?_set]
  by_cases h : i = p
  · subst h; simp [hp]
  · rw [if_neg (fun h' => h h'.symm), if_neg h]

theorem mask_set (m : List Byte) (hm : IdMask m) (p : Nat) (hp : p < 8) (d : Byte) (hd : IsDec d) : IdMask (m.set p d) := by
  refine ⟨by simp [hm.length], fun i hi => ?_, fun i h8 hi => ?_⟩
  · rw [getD_set m p i d (by have := hm.length; omega)]
    split
    · exact .inl hd
    · exact hm.id i hi
  · rw [getD_set m p i d (by have := hm.length; omega), if_neg (by omega)]
    exact hm.rest i h8 hi

theorem dec_not_wild (c : Byte) (h : IsDec c) : ¬ IsWild c := by
  revert c; apply forall_byte; decide +kernel

theorem hits_set (m : List Byte) (hm : IdMask m) (p : Nat) (hp : p < 8) (hw : IsWild (m.getD p 0)) (x : Byte) (hx : IsDec x) (d : Device) (hd : d.address.length = 8) :
    hits (m.set p x) d = (hits m d && decide (digitAt d p = x)) := by
  rw [Bool.eq_iff_iff, hits_iff _ (mask_set m hm p hp x hx) d hd, Bool.and_eq_true, hits_iff m hm d hd, decide_eq_true_iff]
  have hl := hm.length
  constructor
  · intro h
    refine ⟨fun i hi => ?_, ?_⟩
    · have := h i hi
      rw [getD_set m p i x (by omega)] at this
      by_cases hip : i = p
      · subst hip; exact .inl hw
      · rwa [if_neg hip] at this
    · have := h p hp
      rw [getD_set m p p x (by omega), if_pos rfl] at this
      rcases this with h | h
      · exact absurd h (dec_not_wild x hx)
      · exact h.symm
  · rintro ⟨h1, h2⟩ i hi
    rw [getD_set m p i x (by omega)]
    by_cases hip : i = p
    · subst hip; rw [if_pos rfl]; exact .inr h2.symm
    · rw [if_neg hip]; exact h1 i hi

theorem pointwise_append {α β : Type} {R : α → β → Prop} {as : List α} {bs : List β} {as' : List α} {bs' : List β}
    (h : Pointwise R as bs) (h' : Pointwise R as' bs') : Pointwise R (as ++ as') (bs ++ bs') := by
  induction h with
  | nil => exact h'
  | cons h _ ih => exact .cons h ih

/-- what a probe does, seen through `I` (invariant of the state) and `founds` (reports so far) -/
structure Probes {S : Type} (O : Ops S) (st : Settings) (I : S → Prop) (founds : S → List (List Byte × Frame)) (devs : List Device) : Prop where
  progress : ∀ s m, I s → I (O.progress s m) ∧ founds (O.progress s m) = founds s
  probe : ∀ s m, I s → AddressMask m → ∃ r a s' fs, probeSecondary O st s m = .ok (r, a, s') ∧ I s' ∧ founds s' = founds s ++ fs ∧
    match devs.filter (hits m) with
    | [] => r = 0 ∧ fs = []
    | [d] => r = 1 ∧ Pointwise Reports fs [d]
    | _ => r = 2 ∧ fs = []

section
variable {S : Type} {O : Ops S} {st : Settings} {I : S → Prop} {founds : S → List (List Byte × Frame)} {devs : List Device}
  (hP : Probes O st I founds devs) (hlen : ∀ d ∈ devs, d.address.length = 8)
  (hdec : ∀ d ∈ devs, ∀ i, i < 8 → IsDec (digitAt d i))
  (hinj : ∀ d ∈ devs, ∀ e ∈ devs, (∀ i, i < 8 → digitAt d i = digitAt e i) → d = e) (hnd : devs.Nodup)
include hP hlen hdec hinj hnd

omit hdec hinj hnd in
/-- the loop over the digits `ds` at position `p`, given the recursive call -/
theorem scanLoop_finds (p : Nat) (hp : p < 8) (m : List Byte) (hm : IdMask m) (hw : IsWild (m.getD p 0)) (sub : S → List Byte → C (Int × S))
    (hsub : ∀ s x, I s → IsDec x → 2 ≤ (devs.filter (hits (m.set p x))).length →
      ∃ r s' fs es, sub s (m.set p x) = .ok (r, s') ∧ I s' ∧ founds s' = founds s ++ fs ∧ Pointwise Reports fs es ∧ es.Perm (devs.filter (hits (m.set p x)))) :
    ∀ (ds : List Byte), ds.Nodup → (∀ x ∈ ds, IsDec x) → ∀ (m' : List Byte) (_ : ∀ x, m'.set p x = m.set p x) (s : S), I s →
    ∃ s' fs es, scanLoop O st p sub m' ds s = .ok (0, s') ∧ I s' ∧ founds s' = founds s ++ fs ∧ Pointwise Reports fs es ∧
      es.Perm (devs.filter fun d => hits m d && decide (digitAt d p ∈ ds)) := by
  intro ds
  induction ds with
  | nil =>
    intro _ _ m' _ s hI
    exact ⟨s, [], [], rfl, hI, by simp, .nil, by simp⟩
  | cons x ds ih =>
    intro hnd' hds m' hm' s hI
    have hx := hds x (by simp)
    obtain ⟨hxn, hnd''⟩ := List.nodup_cons.mp hnd'
    obtain ⟨hI1, hf1⟩ := hP.progress s (m.set p x) hI
    obtain ⟨r, a, s1, fs1, hpr, hI2, hf2, hr⟩ := hP.probe (O.progress s (m.set p x)) (m.set p x) hI1 (idMask_address _ (mask_set m hm p hp x hx))
    rw [hf1] at hf2
    -- what this digit contributes
    have main : ∃ s2 fs es, I s2 ∧ founds s2 = founds s ++ fs ∧ Pointwise Reports fs es ∧ es.Perm (devs.filter (hits (m.set p x))) ∧
        scanLoop O st p sub m' (x :: ds) s = scanLoop O st p sub (m.set p x) ds s2 := by
      have hstep : scanLoop O st p sub m' (x :: ds) s =
          if r = PROBE_SINGLE then scanLoop O st p sub (m.set p x) ds s1
          else if r = PROBE_COLLISION then sub s1 (m.set p x) >>= fun q => scanLoop O st p sub (m.set p x) ds q.2
          else if r = PROBE_NOTHING then scanLoop O st p sub (m.set p x) ds s1
          else .ok (-1, s1) := by
        rw [scanLoop, hm' x]
        simp only
        rw [hpr, ok_bind]
      split at hr
      · next h =>
        obtain ⟨rfl, rfl⟩ := hr
        refine ⟨s1, [], [], hI2, hf2, .nil, by rw [h], ?_⟩
        rw [hstep, if_neg (by decide), if_neg (by decide), if_pos (by decide)]
      · next d h =>
        obtain ⟨rfl, hpw⟩ := hr
        refine ⟨s1, fs1, [d], hI2, hf2, hpw, by rw [h], ?_⟩
        rw [hstep, if_pos (by decide)]
      · next h1 h2 =>
        obtain ⟨rfl, rfl⟩ := hr
        have h2' : 2 ≤ (devs.filter (hits (m.set p x))).length := by
          match h : devs.filter (hits (m.set p x)) with
          | [] => exact absurd h h1
          | [d] => exact absurd h (h2 d)
          | _ :: _ :: _ => simp
        obtain ⟨r', s2, fs, es, e1, e2, e3, e4, e5⟩ := hsub s1 x hI2 hx h2'
        refine ⟨s2, fs, es, e2, by rw [e3, hf2]; simp, e4, e5, ?_⟩
        rw [hstep, if_neg (by decide), if_pos (by decide), e1, ok_bind]
    obtain ⟨s2, fs, es, hI3, hf3, hpw, hperm, hloop⟩ := main
    obtain ⟨s3, fs', es', e1, e2, e3, e4, e5⟩ := ih hnd'' (fun y hy => hds y (by simp [hy])) (m.set p x) (by simp) s2 hI3
    refine ⟨s3, fs ++ fs', es ++ es', by rw [hloop]; exact e1, e2, by rw [e3, hf3]; simp, pointwise_append hpw e4, ?_⟩
    have hsplit := List.filter_append_perm (fun d => decide (digitAt d p = x)) (devs.filter fun d => hits m d && decide (digitAt d p ∈ x :: ds))
    rw [List.filter_filter, List.filter_filter] at hsplit
    refine List.Perm.trans (List.Perm.append hperm e5) ?_
    have q1 : devs.filter (hits (m.set p x)) = devs.filter (fun d => decide (digitAt d p = x) && (hits m d && decide (digitAt d p ∈ x :: ds))) := by
      apply List.filter_congr
      intro d hd
      rw [hits_set m hm p hp hw x hx d (hlen d hd)]
      by_cases h : digitAt d p = x
      · simp [h]
      · simp [h]
    have q2 : (devs.filter fun d => hits m d && decide (digitAt d p ∈ ds)) =
        devs.filter (fun d => !(decide (digitAt d p = x)) && (hits m d && decide (digitAt d p ∈ x :: ds))) := by
      apply List.filter_congr
      intro d hd
      by_cases h : digitAt d p = x
      · subst h; simp [hxn]
      · simp [h]
    rw [q1, q2]
    exact hsplit

theorem scanAt_finds (n : Nat) : ∀ (p : Nat), p + n = 15 → p < 8 → ∀ (m : List Byte), IdMask m → (∀ i, i < p → IsDec (m.getD i 0)) →
    (∃ i, p ≤ i ∧ i < 8 ∧ IsWild (m.getD i 0)) → ∀ s, I s →
    ∃ s' fs es, scanAt O st (n + 1) s m = .ok (0, s') ∧ I s' ∧ founds s' = founds s ++ fs ∧ Pointwise Reports fs es ∧ es.Perm (devs.filter (hits m)) := by
  induction n with
  | zero => intro p h1 h2; omega
  | succ n ih =>
    intro p hpn hp m hm hpre hwild s hI
    have hpos : 15 - (n + 1) = p := by omega
    have hl := hm.length
    have hrd : rd m p = .ok (m.getD p 0) := by
      rw [rd_ok (by omega)]
      simp [List.getElem?_eq_getElem (show p < m.length by omega)]
    rw [scanAt, hpos, hrd, ok_bind]
    by_cases hw : IsWild (m.getD p 0)
    · rw [if_pos (by rcases hw with h | h; exact .inr h; exact .inl h)]
      obtain ⟨s', fs, es, e1, e2, e3, e4, e5⟩ := scanLoop_finds hP hlen p hp m hm hw (scanAt O st (n + 1)) (by
        intro s x hI hx h2
        -- two devices share all fixed digits, so a wildcard is left
        have hm' := mask_set m hm p hp x hx
        have hex : ∃ i, p + 1 ≤ i ∧ i < 8 ∧ IsWild ((m.set p x).getD i 0) := by
          apply Classical.byContradiction
          intro hno
          have hfix : ∀ i, i < 8 → IsDec ((m.set p x).getD i 0) := by
            intro i hi
            rcases hm'.id i hi with h | h
            · exact h
            · by_cases hip : p + 1 ≤ i
              · exact absurd ⟨i, hip, hi, h⟩ hno
              · rw [getD_set m p i x (by omega)]
                by_cases hip' : i = p
                · rw [if_pos hip']; exact hx
                · rw [if_neg hip']; exact hpre i (by omega)
          have hone : ∀ d ∈ devs.filter (hits (m.set p x)), ∀ e ∈ devs.filter (hits (m.set p x)), d = e := by
            intro d hd e he
            obtain ⟨hd1, hd2⟩ := List.mem_filter.mp hd
            obtain ⟨he1, he2⟩ := List.mem_filter.mp he
            apply hinj d hd1 e he1
            intro i hi
            have a := (hits_iff _ hm' d (hlen d hd1)).mp hd2 i hi
            have b := (hits_iff _ hm' e (hlen e he1)).mp he2 i hi
            have nw := dec_not_wild _ (hfix i hi)
            rcases a with a | a
            · exact absurd a nw
            rcases b with b | b
            · exact absurd b nw
            rw [← a, ← b]
          have hnd2 := hnd.filter (hits (m.set p x))
          match h : devs.filter (hits (m.set p x)), h2 with
          | d :: e :: r, _ =>
            rw [h] at hone hnd2
            have : d = e := hone d (by simp) e (by simp)
            subst this
            simp at hnd2
        obtain ⟨i, hi1, hi2, hi3⟩ := hex
        obtain ⟨s', fs, es, e1, e2, e3, e4, e5⟩ := ih (p + 1) (by omega) (by omega) (m.set p x) hm' (by
          intro j hj
          rw [getD_set m p j x (by omega)]
          by_cases hjp : j = p
          · rw [if_pos hjp]; exact hx
          · rw [if_neg hjp]; exact hpre j (by omega)) ⟨i, hi1, hi2, hi3⟩ s hI
        exact ⟨0, s', fs, es, e1, e2, e3, e4, e5⟩) decimalDigits (by decide) (by decide) m (fun _ => rfl) s hI
      refine ⟨s', fs, es, e1, e2, e3, e4, ?_⟩
      have : (devs.filter fun d => hits m d && decide (digitAt d p ∈ decimalDigits)) = devs.filter (hits m) := by
        apply List.filter_congr
        intro d hd
        have hall : ∀ c : Byte, IsDec c → c ∈ decimalDigits := by apply forall_byte; decide +kernel
        simp [hall _ (hdec d hd p hp)]
      rw [this] at e5
      exact e5
    · rw [if_neg (by rintro (h | h); exact hw (.inr h); exact hw (.inl h)), if_pos (by omega)]
      obtain ⟨i, hi1, hi2, hi3⟩ := hwild
      have hip : i ≠ p := by rintro rfl; exact hw hi3
      obtain ⟨s', fs, es, e1, e2, e3, e4, e5⟩ := ih (p + 1) (by omega) (by omega) m hm (by
        intro j hj
        by_cases hjp : j = p
        · subst hjp
          rcases hm.id j (by omega) with h | h
          · exact h
          · exact absurd h hw
        · exact hpre j (by omega)) ⟨i, by omega, hi2, hi3⟩ s hI
      refine ⟨s', fs, es, ?_, e2, e3, e4, e5⟩
      rw [e1, ok_bind]

end

end Mbus
