import Verif.Lemmas.ScanWire
import Verif.Lemmas.ScanRun
import Verif.Lemmas.ScanDefined
import Verif.Props.Address
import Verif.Props.Command
/-
Property theorems C48, C74 (what a secondary scan finds), C49 (which masks it probes), C75 (probing one mask).
-/
namespace Mbus
open Spec

/-! ### C48, C74 -/

theorem dec_digit (v : Nat) (h : v ≤ 9) : IsDec (hexUpper.getD v 0) := by
  have : ∀ v : Fin 10, IsDec (hexUpper.getD v.val 0) := by decide +kernel
  exact this ⟨v, by omega⟩

theorem digit_inj (v w : Nat) (hv : v < 16) (hw : w < 16) (h : hexUpper.getD v 0 = hexUpper.getD w 0) : v = w := by
  have : ∀ v w : Fin 16, hexUpper.getD v.val 0 = hexUpper.getD w.val 0 → v = w := by decide +kernel
  have := this ⟨v, hv⟩ ⟨w, hw⟩ h
  exact Fin.mk.inj_iff.mp this

theorem digitAt_dec (d : Device) (h12 : 12 ≤ d.p.length) (hd : d.Decimal) (i : Nat) (hi : i < 8) : IsDec (digitAt d i) := by
  unfold digitAt Device.address
  unfold Device.Decimal at hd
  match hp : d.p, h12 with
  | b0 :: b1 :: b2 :: b3 :: b4 :: b5 :: b6 :: b7 :: rest, _ =>
    rw [hp] at hd
    simp only [List.take_succ_cons, List.take_zero, List.mem_cons, List.not_mem_nil, or_false] at hd
    have d0 := hd b0 (by simp)
    have d1 := hd b1 (by simp)
    have d2 := hd b2 (by simp)
    have d3 := hd b3 (by simp)
    have e : addressText ((b0 :: b1 :: b2 :: b3 :: b4 :: b5 :: b6 :: b7 :: rest).take 8) =
      hexPair b3 ++ hexPair b2 ++ hexPair b1 ++ hexPair b0 ++ hexPair b4 ++ hexPair b5 ++ hexPair b6 ++ hexPair b7 := by
      simp [addressText, swapId]
    rw [e]
    match i, hi with
    | 0, _ => exact dec_digit _ d3.1
    | 1, _ => exact dec_digit _ d3.2
    | 2, _ => exact dec_digit _ d2.1
    | 3, _ => exact dec_digit _ d2.2
    | 4, _ => exact dec_digit _ d1.1
    | 5, _ => exact dec_digit _ d1.2
    | 6, _ => exact dec_digit _ d0.1
    | 7, _ => exact dec_digit _ d0.2

theorem byte_eq (a b : Byte) (h1 : hexUpper.getD (a.toNat / 16) 0 = hexUpper.getD (b.toNat / 16) 0)
    (h2 : hexUpper.getD (a.toNat % 16) 0 = hexUpper.getD (b.toNat % 16) 0) : a = b := by
  have ha := a.toNat_lt
  have hb := b.toNat_lt
  have e1 := digit_inj _ _ (by omega) (by omega) h1
  have e2 := digit_inj _ _ (by omega) (by omega) h2
  apply UInt8.toNat_inj.mp
  omega

theorem digitAt_inj (d e : Device) (hd : 12 ≤ d.p.length) (he : 12 ≤ e.p.length) (h : ∀ i, i < 8 → digitAt d i = digitAt e i) :
    d.p.take 4 = e.p.take 4 := by
  unfold digitAt Device.address at h
  match hp : d.p, hd, hq : e.p, he with
  | b0 :: b1 :: b2 :: b3 :: b4 :: b5 :: b6 :: b7 :: rest, _, c0 :: c1 :: c2 :: c3 :: c4 :: c5 :: c6 :: c7 :: rest', _ =>
    rw [hp, hq] at h
    have e : ∀ (b0 b1 b2 b3 b4 b5 b6 b7 : Byte) (rest : List Byte), addressText ((b0 :: b1 :: b2 :: b3 :: b4 :: b5 :: b6 :: b7 :: rest).take 8) =
      hexPair b3 ++ hexPair b2 ++ hexPair b1 ++ hexPair b0 ++ hexPair b4 ++ hexPair b5 ++ hexPair b6 ++ hexPair b7 := by
      intros; simp [addressText, swapId]
    rw [e, e] at h
    have h3 := byte_eq b3 c3 (h 0 (by omega)) (h 1 (by omega))
    have h2 := byte_eq b2 c2 (h 2 (by omega)) (h 3 (by omega))
    have h1 := byte_eq b1 c1 (h 4 (by omega)) (h 5 (by omega))
    have h0 := byte_eq b0 c0 (h 6 (by omega)) (h 7 (by omega))
    simp [h0, h1, h2, h3]

theorem distinct_inj {devs : List Device} (h : devs.Pairwise (fun d e => d.p.take 4 ≠ e.p.take 4)) :
    ∀ d ∈ devs, ∀ e ∈ devs, d.p.take 4 = e.p.take 4 → d = e := by
  induction h with
  | nil => intro d hd; simp at hd
  | @cons x l h1 h2 ih =>
    intro d hd e he heq
    rcases List.mem_cons.mp hd with hd' | hd'
    · rcases List.mem_cons.mp he with he' | he'
      · rw [hd', he']
      · rw [hd'] at heq; exact absurd heq (h1 e he')
    · rcases List.mem_cons.mp he with he' | he'
      · rw [he'] at heq; exact absurd heq.symm (h1 d hd')
      · exact ih d hd' e he' heq

theorem distinct_nodup {devs : List Device} (h : devs.Pairwise (fun d e => d.p.take 4 ≠ e.p.take 4)) : devs.Nodup := by
  refine h.imp ?_
  intro a b hab heq
  exact hab (by rw [heq])

/-- the identification digits of a mask and its bytes -/
theorem hits_selects (m : List Byte) (hm : IdMask m) (d : Device) : hits m d = selects (addressBytes m) d.address := by
  unfold hits
  have ha := idMask_address m hm
  rw [selBytes_eq m ha.1 ha.2]
  intro c hc
  obtain ⟨i, hi, rfl⟩ := List.mem_iff_getElem.mp hc
  have hl := hm.length
  simp only [List.length_take] at hi
  have e : (m.take 8)[i]'(by simpa using hi) = m.getD i 0 := by simp [show i < m.length by omega]
  rw [e]
  have key : ∀ c : Byte, IsDec c ∨ IsWild c → IdDigit c := by apply forall_byte; decide +kernel
  exact key _ (hm.id i (by omega))

/-- C74 (what holds): a scan from position `pos` with a mask of decimal digits and wildcards for the identification number (the
positions before `pos` fixed, at least one later digit of the identification number a wildcard) and wildcards for the rest
reports exactly the meters the mask selects, each exactly once and with its address and its response, and returns 0.  The
observed run is the run itself (`C49_passive`). -/
theorem C74_scan_mask_partial (k : Kind) (env : Env) (purge : Int) (st : Settings) (devs : List Device) (h : Scannable k env purge st devs)
    (m : List Byte) (hm : IdMask m) (pos : Nat) (hfix : ∀ i, i < pos → IsDec (m.getD i 0))
    (hwild : ∃ i, pos ≤ i ∧ i < 8 ∧ IsWild (m.getD i 0)) (sent : List (List Byte)) :
    ∃ sent' log es, scanRange ((busLink k env).ops purge).logged st (⟨[], sent⟩, []) pos m = .ok (0, ⟨[], sent'⟩, log) ∧
      Pointwise Reports (foundOf log) es ∧ es.Perm (devs.filter fun d => selects (addressBytes m) d.address) := by
  have hpos : pos < 8 := by obtain ⟨i, h1, h2, _⟩ := hwild; omega
  have hlen : ∀ d ∈ devs, d.address.length = 8 := by
    intro d hd
    have := (h.readable d hd).2.1
    unfold Device.address
    simp; omega
  obtain ⟨s', fs, es, e1, e2, e3, e4, e5⟩ := scanAt_finds (probes_wire k env h.opened h.writable purge h.keeps devs h.faithful h.readable st h.retries)
    hlen (fun d hd i hi => digitAt_dec d (h.readable d hd).2.1 (h.decimal d hd) i hi)
    (fun d hd e he hde => distinct_inj h.distinct d hd e he (digitAt_inj d e (h.readable d hd).2.1 (h.readable e he).2.1 hde))
    (distinct_nodup h.distinct) (15 - pos) pos (by omega) hpos m hm hfix hwild (⟨[], sent⟩, []) rfl
  obtain ⟨⟨script, sent'⟩, log⟩ := s'
  simp only at e2
  subst e2
  simp only [foundOf, List.filterMap_nil, List.nil_append] at e3
  refine ⟨sent', log, es, ?_, ?_, ?_⟩
  · unfold scanRange
    rw [if_neg (by have := hm.length; omega), if_neg (by omega), ← e1]
    congr 1
    simp only [Int.toNat_natCast]; omega
  · rw [show foundOf log = fs from e3]; exact e4
  · rw [← (List.filter_congr fun d _ => hits_selects m hm d : devs.filter (hits m) = _)]; exact e5

theorem allWild_mask : IdMask allWild :=
  ⟨rfl, by unfold allWild; decide +kernel, fun i _ hi => (by decide +kernel : ∀ i, i < 16 → IsWild (allWild.getD i 0)) i hi⟩

theorem allWild_selects (d : Device) : selects (addressBytes allWild) d.address = true := by
  have : addressBytes allWild = [255, 255, 255, 255, 255, 255, 255, 255] := by decide +kernel
  rw [this]
  generalize d.address = id
  have h1 : ∀ (n : Nat) (l : List Byte), ((List.replicate n (255 : Byte)).zip l).all (fun q => digitsMatch q.1 q.2) = true := by
    intro n
    induction n with
    | zero => intro l; rfl
    | succ n ih =>
      intro l
      cases l with
      | nil => rfl
      | cons b l =>
        rw [List.replicate_succ, List.zip_cons_cons, List.all_cons, ih l, Bool.and_true]
        simp [digitsMatch]
  have h2 : ∀ (n : Nat) (l : List Byte), ((List.replicate n (255 : Byte)).zip l).all (fun q => byteMatch q.1 q.2) = true := by
    intro n
    induction n with
    | zero => intro l; rfl
    | succ n ih =>
      intro l
      cases l with
      | nil => rfl
      | cons b l =>
        rw [List.replicate_succ, List.zip_cons_cons, List.all_cons, ih l, Bool.and_true]
        rfl
  unfold selects
  rw [Bool.and_eq_true]
  exact ⟨h1 4 _, h2 4 _⟩

/-- C48: a scan of the whole address range reports every meter on the bus exactly once (as the address and the response of that
meter), nothing else, and returns 0. -/
theorem C48_scan_finds_all (k : Kind) (env : Env) (purge : Int) (st : Settings) (devs : List Device) (h : Scannable k env purge st devs)
    (sent : List (List Byte)) :
    ∃ sent' log es, scanRange ((busLink k env).ops purge).logged st (⟨[], sent⟩, []) 0 allWild = .ok (0, ⟨[], sent'⟩, log) ∧
      Pointwise Reports (foundOf log) es ∧ es.Perm devs := by
  obtain ⟨sent', log, es, h1, h2, h3⟩ := C74_scan_mask_partial k env purge st devs h allWild allWild_mask 0 (by intro i hi; omega)
    ⟨0, by omega, by omega, .inl rfl⟩ sent
  refine ⟨sent', log, es, h1, h2, ?_⟩
  have : (devs.filter fun d => selects (addressBytes allWild) d.address) = devs :=
    List.filter_eq_self.mpr (fun d _ => allWild_selects d)
  rw [this] at h3
  exact h3

/-- the loop over digits whose probes find nothing -/
theorem scanLoop_nothing {S : Type} {O : Ops S} {st : Settings} {I : S → Prop} {founds : S → List (List Byte × Frame)} {devs : List Device}
    (hP : Probes O st I founds devs) (p : Nat) (sub : S → List Byte → C (Int × S)) (m : List Byte) (ds : List Byte)
    (hds : ∀ x ∈ ds, AddressMask (m.set p x) ∧ devs.filter (hits (m.set p x)) = []) :
    ∀ (m' : List Byte) (_ : ∀ x, m'.set p x = m.set p x) (s : S), I s →
    ∃ s', scanLoop O st p sub m' ds s = .ok (0, s') ∧ I s' ∧ founds s' = founds s := by
  induction ds with
  | nil => intro m' _ s hI; exact ⟨s, rfl, hI, rfl⟩
  | cons x ds ih =>
    intro m' hm' s hI
    obtain ⟨ha, h0⟩ := hds x (by simp)
    rw [scanLoop, hm' x]
    obtain ⟨hI1, hf1⟩ := hP.progress s (m.set p x) hI
    obtain ⟨r, a, s1, fs, e1, e2, e3, e4⟩ := hP.probe _ _ hI1 ha
    rw [h0] at e4
    obtain ⟨rfl, rfl⟩ := e4
    obtain ⟨s2, g1, g2, g3⟩ := ih (fun y hy => hds y (by simp [hy])) (m.set p x) (by simp) s1 e2
    refine ⟨s2, ?_, g2, by rw [g3, e3, hf1]; simp⟩
    simp only [e1, ok_bind]
    rw [if_neg (by decide), if_neg (by decide), if_pos (by decide)]
    exact g1

/-- fixed positions are skipped -/
theorem scanAt_skip {S : Type} (O : Ops S) (st : Settings) (m : List Byte) (hl : m.length = 16) (s : S) (s' : S) (j : Nat) : ∀ (n : Nat),
    (∀ i, 16 - (n + j) ≤ i → i < 16 - n → ¬ IsWild (m.getD i 0)) → 0 < n → n + j ≤ 16 → scanAt O st n s m = .ok (0, s') → scanAt O st (n + j) s m = .ok (0, s') := by
  induction j with
  | zero => intro n _ _ _ h; exact h
  | succ j ih =>
    intro n hfix h0 hn h
    have hnw := hfix (15 - (n + j)) (by omega) (by omega)
    have hrd : rd m (15 - (n + j)) = .ok (m.getD (15 - (n + j)) 0) := by
      rw [rd_ok (by omega)]
      simp [List.getElem?_eq_getElem (show 15 - (n + j) < m.length by omega)]
    rw [show n + (j + 1) = (n + j) + 1 by omega, scanAt, hrd, ok_bind, if_neg (by rintro (h | h); exact hnw (.inr h); exact hnw (.inl h)), if_pos (by omega),
      ih n (fun i h1 h2 => hfix i (by omega) h2) h0 (by omega) h]
    rfl

theorem full_id_miss (d : Device) (h8 : d.address.length = 8) (hm : (d.address.getD 4 0).toNat % 16 ≠ 15) (x : Byte) (hx : IsDec x) :
    AddressMask (((addressText d.address).take 8 ++ List.replicate 8 70).set 8 x) ∧ hits (((addressText d.address).take 8 ++ List.replicate 8 70).set 8 x) d = false := by
  constructor
  · have h16 := addressText_length _ h8
    refine ⟨by simp [h16], ?_⟩
    intro c hc
    rcases List.mem_or_eq_of_mem_set hc with hc | hc
    · rcases List.mem_append.mp hc with hc | hc
      · exact .inl (addressText_upper _ c (List.mem_of_mem_take hc))
      · rw [List.eq_of_mem_replicate hc]; decide
    · subst hc
      have : ∀ c : Byte, IsDec c → IsHex c := by apply forall_byte; decide +kernel
      exact this c hx
  · unfold hits
    generalize d.address = id at h8 hm
    match id, h8 with
    | [b0, b1, b2, b3, b4, b5, b6, b7], _ =>
      have hb : byteMatch (UInt8.ofNat (16 * digitVal x + digitVal 70)) b4 = false := by
        have hv : digitVal x ≤ 9 := by
          revert x; apply forall_byte; decide +kernel
        have h70 : digitVal 70 = 15 := by decide +kernel
        simp only [List.getD_cons_succ, List.getD_cons_zero] at hm
        unfold byteMatch
        rw [h70]
        rw [Bool.or_eq_false_iff, decide_eq_false_iff_not, decide_eq_false_iff_not]
        constructor
        · intro h
          have := congrArg UInt8.toNat h
          rw [UInt8.toNat_ofNat_of_lt' (show _ < 256 by omega)] at this
          have e : (255 : UInt8).toNat = 255 := rfl
          omega
        · intro h
          rw [← h, UInt8.toNat_ofNat_of_lt' (show _ < 256 by omega)] at hm
          omega
      have e : ((addressText [b0, b1, b2, b3, b4, b5, b6, b7]).take 8 ++ List.replicate 8 70).set 8 x =
        hexPair b3 ++ hexPair b2 ++ hexPair b1 ++ hexPair b0 ++ [x, 70, 70, 70, 70, 70, 70, 70] := by
        simp [addressText, swapId, hexPair, List.replicate]
      rw [e]
      simp only [hexPair, List.cons_append, List.nil_append, selBytes, selects, List.take_succ_cons, List.take_zero, List.drop_succ_cons, List.drop_zero,
        List.zip_cons_cons, List.zip_nil_left, List.all_cons, List.all_nil, hb, Bool.false_and, Bool.and_false]

/-- C74 (what does not hold): if the mask fixes the whole identification number of a meter, the scan goes on with decimal digits
for single hexadecimal digits of the manufacturer bytes, which are compared as bytes: the meter is not found although the mask
selects it.  (Only manufacturer bytes like 1F would be found.) -/
theorem C74_fixed_id_violation (k : Kind) (env : Env) (purge : Int) (st : Settings) (d : Device) (h : Scannable k env purge st [d])
    (hmfr : (d.address.getD 4 0).toNat % 16 ≠ 15) (sent : List (List Byte)) :
    selects (addressBytes ((addressText d.address).take 8 ++ List.replicate 8 70)) d.address = true ∧
    ∃ sent' log, scanRange ((busLink k env).ops purge).logged st (⟨[], sent⟩, []) 0 ((addressText d.address).take 8 ++ List.replicate 8 70) =
      .ok (0, ⟨[], sent'⟩, log) ∧ foundOf log = [] := by
  have hr := h.readable d (by simp)
  have h8 : d.address.length = 8 := by
    have := hr.2.1
    unfold Device.address
    simp; omega
  have h16 := addressText_length _ h8
  have hdec := fun i hi => digitAt_dec d hr.2.1 (h.decimal d (by simp)) i hi
  have hget : ∀ i, i < 8 → ((addressText d.address).take 8 ++ List.replicate 8 (70 : Byte)).getD i 0 = digitAt d i := by
    intro i hi
    unfold digitAt
    simp [List.getD_eq_getElem?_getD, List.getElem?_append, h16, hi, List.getElem?_eq_getElem (show i < (addressText d.address).length by omega)]
  have hmask : IdMask ((addressText d.address).take 8 ++ List.replicate 8 (70 : Byte)) := by
    refine ⟨by simp [h16], fun i hi => ?_, fun i h8 hi => ?_⟩
    · rw [hget i hi]; exact .inl (hdec i hi)
    · left
      clear hget
      have key : ∀ j, j < 8 → (List.replicate 8 (70 : Byte))[j]? = some 70 := by decide +kernel
      rw [List.getD_eq_getElem?_getD, List.getElem?_append_right (by simp [h16]; omega)]
      rw [key _ (by simp [h16]; omega)]
      rfl
  constructor
  · rw [← hits_selects _ hmask, hits_iff _ hmask d h8]
    intro i hi
    exact .inr (hget i hi)
  have hP := probes_wire k env h.opened h.writable purge h.keeps [d] h.faithful h.readable st h.retries
  obtain ⟨⟨⟨script, sent'⟩, log⟩, e1, e2, e3⟩ := scanLoop_nothing hP 8 (scanAt ((busLink k env).ops purge).logged st 7)
    ((addressText d.address).take 8 ++ List.replicate 8 70) decimalDigits
    (fun x hx => by
      have hx' : IsDec x := (by decide : ∀ x ∈ decimalDigits, IsDec x) x hx
      have := full_id_miss d h8 hmfr x hx'
      exact ⟨this.1, by rw [List.filter_cons, this.2]; rfl⟩) _ (fun _ => rfl) (⟨[], sent⟩, []) rfl
  simp only at e2
  subst e2
  refine ⟨sent', log, ?_, e3⟩
  unfold scanRange
  rw [if_neg (by simp [h16]), if_neg (by decide)]
  refine scanAt_skip _ st _ (by simp [h16]) _ _ 8 8 ?_ (by omega) (by omega) ?_
  · intro i _ hi
    rw [hget i (by omega)]
    exact dec_not_wild _ (hdec i (by omega))
  · rw [scanAt]
    have : rd ((addressText d.address).take 8 ++ List.replicate 8 (70 : Byte)) (15 - 7) = .ok 70 := by
      rw [rd_ok (by simp [h16])]
      simp [h16]
    rw [this, ok_bind, if_pos (by decide)]
    exact e1

/-! non-vacuity: for every set of meters there is a faithful bus -/

/-- answers to a selection on an ideal bus: several at once arrive as the byte FF -/
def idealAck : List Device → List (List Byte)
  | [] => []
  | [_] => [[0xE5]]
  | _ => [[0xFF]]

/-- answers to the request that follows -/
def idealData : List Device → List (List Byte)
  | [] => []
  | [d] => [d.telegram.wire]
  | _ => [[0xFF]]

/-- the meters a transmission selects -/
def picked (devs : List Device) (x : List Byte) : List Device := devs.filter fun d => selects ((x.drop 7).take 8) d.address

/-- what the meters answer to the last transmission (newest first) -/
def idealAnswer (devs : List Device) : List (List Byte) → List (List Byte)
  | [] => []
  | [x] => idealAck (picked devs x)
  | x :: y :: _ => if x = requestWire then idealData (picked devs y) else idealAck (picked devs x)

/-- the meters `devs` on an ideal bus -/
def idealBus (devs : List Device) : Env where
  respond sent := evs (idealAnswer devs sent.reverse)
  junk _ := 0
  wret _ n := n
  tty := true

theorem selectionWire_sel (sel : List Byte) (h : sel.length = 8) : ((selectionWire sel).drop 7).take 8 = sel ∧ selectionWire sel ≠ requestWire := by
  match sel, h with
  | [a, b, c, d, e, f, g, i], _ =>
    refine ⟨by simp [selectionWire, Telegram.wire], ?_⟩
    simp [selectionWire, requestWire, Telegram.wire]

theorem idealBus_faithful (devs : List Device) : Faithful devs (idealBus devs) := by
  constructor
  · intro sent sel hsel
    obtain ⟨h1, h2⟩ := selectionWire_sel sel hsel
    have : idealAnswer devs (sent ++ [selectionWire sel]).reverse = idealAck (devs.filter fun d => selects sel d.address) := by
      rw [List.reverse_append, List.reverse_singleton, List.singleton_append]
      match sent.reverse with
      | [] => rw [idealAnswer, picked, h1]
      | y :: r => rw [idealAnswer, if_neg h2, picked, h1]
    refine ⟨_, ?_, rfl, ?_⟩
    all_goals
      rw [this]
      generalize (devs.filter fun d => selects sel d.address) = l
      match l with
      | [] => simp [idealAck, Chunks]
      | [d] => simp [idealAck, Chunks]
      | d :: e :: r => simp only [idealAck, Chunks]; first | exact .inr (.start _ _ (by unfold NoStart; decide)) | simp
  · intro sent sel hsel
    obtain ⟨h1, h2⟩ := selectionWire_sel sel hsel
    have : idealAnswer devs (sent ++ [selectionWire sel] ++ [requestWire]).reverse = idealData (devs.filter fun d => selects sel d.address) := by
      rw [List.reverse_append, List.reverse_singleton, List.singleton_append, List.reverse_append, List.reverse_singleton, List.singleton_append]
      rw [idealAnswer, if_pos rfl, picked, h1]
    refine ⟨_, ?_, rfl, ?_⟩
    all_goals
      rw [this]
      generalize (devs.filter fun d => selects sel d.address) = l
      match l with
      | [] => simp [idealData, Chunks]
      | [d] => simp [idealData, Chunks, Device.telegram, Telegram.wire]
      | d :: e :: r => simp only [idealData, Chunks]; first | exact .start _ _ (by unfold NoStart; decide) | simp

/-- two meters whose identification numbers differ in the last digit only -/
def twoMeters : List Device :=
  [⟨0x08, 1, [0x78, 0x56, 0x34, 0x12, 0x24, 0x40, 1, 7, 0, 0, 0, 0]⟩,
   ⟨0x08, 2, [0x79, 0x56, 0x34, 0x12, 0x24, 0x40, 1, 7, 5, 0, 0, 0, 0x01, 0x13, 0x2A]⟩]

theorem twoMeters_scannable (k : Kind) : Scannable k (idealBus twoMeters) PURGE_M2S ⟨3, 1, PURGE_M2S⟩ twoMeters := by
  refine ⟨.inr rfl, fun _ _ => rfl, by decide, by decide, idealBus_faithful _, ?_, ?_, ?_⟩
  · intro d hd
    rcases List.mem_cons.mp hd with rfl | hd
    · exact ⟨by decide, by decide, by decide, [], .nil⟩
    · rcases List.mem_cons.mp hd with rfl | hd
      · refine ⟨by decide, by decide, by decide, ?_⟩
        exact ⟨[.value 0x01 [] 0x13 [] [] [0x2A]], .cons (dif := 0x01) (difes := []) (vif := 0x13) (text := []) (vifes := []) (data := [0x2A])
          (by simp only [Rec.Legal, DataFits]; rw [if_neg (by decide)]; decide) .nil⟩
      · simp at hd
  · intro d hd
    rcases List.mem_cons.mp hd with rfl | hd
    · unfold Device.Decimal; decide
    · rcases List.mem_cons.mp hd with rfl | hd
      · unfold Device.Decimal; decide
      · simp at hd
  · simp [twoMeters]

/-- the scan finds both (and needs eight levels of recursion for it) -/
example (k : Kind) : ∃ sent' log es, scanRange ((busLink k (idealBus twoMeters)).ops PURGE_M2S).logged ⟨3, 1, PURGE_M2S⟩ (⟨[], []⟩, []) 0 allWild =
    .ok (0, ⟨[], sent'⟩, log) ∧ Pointwise Reports (foundOf log) es ∧ es.Perm twoMeters :=
  C48_scan_finds_all k _ _ _ _ (twoMeters_scannable k) []

/-- mask 1234567F... from position 3 -/
example (k : Kind) : ∃ sent' log es, scanRange ((busLink k (idealBus twoMeters)).ops PURGE_M2S).logged ⟨3, 1, PURGE_M2S⟩ (⟨[], []⟩, []) (3 : Nat)
    [49, 50, 51, 52, 53, 54, 55, 70, 70, 70, 70, 70, 70, 70, 70, 70] =
    .ok (0, ⟨[], sent'⟩, log) ∧ Pointwise Reports (foundOf log) es ∧ es.Perm (twoMeters.filter fun d => selects (addressBytes [49, 50, 51, 52, 53, 54, 55, 70, 70, 70, 70, 70, 70, 70, 70, 70]) d.address) :=
  C74_scan_mask_partial k _ _ _ _ (twoMeters_scannable k) _
    ⟨rfl, by decide +kernel, fun i h8 hi => (by decide +kernel : ∀ i, i < 16 → 8 ≤ i → IsWild (([49, 50, 51, 52, 53, 54, 55, 70, 70, 70, 70, 70, 70, 70, 70, 70] : List Byte).getD i 0)) i hi h8⟩ 3
    (by decide) ⟨7, by decide, by decide, .inl rfl⟩ []

/-- a bus with one of them -/
example (k : Kind) : Scannable k (idealBus [twoMeters.head (by simp [twoMeters])]) PURGE_M2S ⟨3, 1, PURGE_M2S⟩ [twoMeters.head (by simp [twoMeters])] ∧
    ((twoMeters.head (by simp [twoMeters])).address.getD 4 0).toNat % 16 ≠ 15 := by
  have h := twoMeters_scannable k
  have hm : twoMeters.head (by simp [twoMeters]) ∈ twoMeters := by simp [twoMeters]
  exact ⟨⟨.inr rfl, fun _ _ => rfl, by decide, by decide, idealBus_faithful _, fun d hd => h.readable d (by rw [List.mem_singleton.mp hd]; exact hm),
    fun d hd => h.decimal d (by rw [List.mem_singleton.mp hd]; exact hm), by simp⟩, by decide⟩

/-! ### C75 -/

/-- C75: a probe tries the selection at most (retry limit + 1) times and repeats it only after it found nothing; after "single" it
requests the data once; the outcome, the reported address and the reports to the caller are as in the table `Probing`.  The
observed run is the run itself. -/
theorem C75_probe {σ : Type} (o : Ops σ) (st : Settings) (s : σ) (m : List Byte) (hl : m.length = 16) (r : Int) (a : Option (List Byte)) (s' : σ) :
    (probeSecondary o st s m = .ok (r, a, s') ↔ ∃ log, probeSecondary o.logged st (s, []) m = .ok (r, a, s', log)) ∧
    ∀ log, probeSecondary o.logged st (s, []) m = .ok (r, a, s', log) → Probing m (st.maxSearchRetry + 1).toNat r a log := by
  constructor
  · have h := probe_passive o st s [] m
    constructor
    · intro h'
      rw [h'] at h
      cases hq : probeSecondary o.logged st (s, []) m with
      | error e => rw [hq] at h; cases h
      | ok q =>
        obtain ⟨r1, a1, s1, log⟩ := q
        rw [hq] at h
        cases h
        exact ⟨log, rfl⟩
    · rintro ⟨log, hq⟩
      rw [hq] at h
      exact h.symm
  · intro log h
    obtain ⟨l, h1, h2⟩ := probe_log o st m hl s [] r a (s', log) h
    simp only [List.nil_append] at h1
    rw [h1]; exact h2

/-- C75: an address is reported exactly for the outcome SINGLE, and it is that of the received telegram; the outcome COLLISION
means that garbage or more than one telegram was the last thing to arrive. -/
theorem C75_outcomes (m : List Byte) (n : Nat) (r : Int) (a : Option (List Byte)) (log : List Act) (h : Probing m n r a log) :
    (r = -1 ∨ r = 0 ∨ r = 1 ∨ r = 2) ∧ (r = 2 ↔ Collided log) ∧
    (r = 1 ↔ a.isSome = true) ∧ (r ≠ 1 → foundOf log = []) ∧
    (∀ x, a = some x → ∃ g, foundOf log = [(x, g)] ∧ g.type = TYPE_LONG ∧ ∃ t, getSecondaryAddress g = .ok (some t) ∧ x = t.take 16) := by
  have hsel : ∀ {r l}, Selection m r l → foundOf l = [] := by
    intro r l h; cases h <;> rfl
  refine ⟨?_, probing_collided h, ?_⟩
  · induction h with
    | exhausted => simp
    | decided n r l hr _ => rcases hr with h | h <;> simp [h]
    | again n r a l l' _ _ ih => exact ih
    | selected n r a l l' _ hi => cases hi <;> simp
  · induction h with
    | exhausted => exact ⟨by simp, fun _ => rfl, by simp⟩
    | decided n r l hr hs => exact ⟨by rcases hr with h | h <;> simp [h], fun _ => hsel hs, by simp⟩
    | again n r a l l' hs _ ih => rw [foundOf_append, hsel hs]; exact ih
    | selected n r a l l' hs hi =>
      rw [foundOf_append, hsel hs]
      cases hi with
      | single f c rc g t _ _ _ _ hg ht => exact ⟨by simp, by simp, by rintro x ⟨⟩; exact ⟨g, rfl, hg, t, ht, rfl⟩⟩
      | _ => exact ⟨by simp, fun _ => rfl, by simp⟩

/-- C75: a mask that is not 16 characters long is refused without touching the handle -/
theorem C75_mask_length {σ : Type} (o : Ops σ) (st : Settings) (s : σ) (m : List Byte) (hl : m.length ≠ 16) :
    probeSecondary o st s m = .ok (-1, none, s) := by
  unfold probeSecondary; rw [if_pos hl]; rfl

/-! ### C49 -/

/-- C49: the observer changes nothing -/
theorem C49_passive {σ : Type} (o : Ops σ) (st : Settings) (s : σ) (pos : Int) (m : List Byte) (r : Int) (s' : σ) :
    scanRange o st s pos m = .ok (r, s') ↔ ∃ log, scanRange o.logged st (s, []) pos m = .ok (r, s', log) := by
  have h := scan_passive o st s [] pos m
  constructor
  · intro h'
    rw [h'] at h
    cases hq : scanRange o.logged st (s, []) pos m with
    | error e => rw [hq] at h; cases h
    | ok q =>
      obtain ⟨r1, s1, log⟩ := q
      rw [hq] at h
      cases h
      exact ⟨log, rfl⟩
  · rintro ⟨log, hq⟩
    rw [hq] at h
    exact h.symm

/-- C49: on both transports and for every behaviour of the bus the scan ends; the only thing that can go wrong is the memory
error of C27 when the address is read from a received response. -/
theorem C49_terminates (k : Kind) (env : Env) (purge : Int) (st : Settings) (b : Bus) (pos : Int) (m : List Byte) :
    (∃ r b', scanRange ((busLink k env).ops purge) st b pos m = .ok (r, b')) ∨
    ∃ e, scanRange ((busLink k env).ops purge) st b pos m = .error e ∧ ParserFault e := by
  cases h : scanRange ((busLink k env).ops purge) st b pos m with
  | ok q => exact .inl ⟨q.1, q.2, rfl⟩
  | error e => exact .inr ⟨e, rfl, scan_within (bus_behaves k env purge) st b pos m e h⟩

theorem scan_run {σ : Type} (o : Ops σ) (st : Settings) (s : σ) (pos : Nat) (m : List Byte) (r : Int) (s' : σ) (log : List Act)
    (hl : m.length = 16) (hp : pos < 16) (h : scanRange o.logged st (s, []) pos m = .ok (r, s', log)) : ScanRun (st.maxSearchRetry + 1).toNat (16 - pos) m (visits log) := by
  unfold scanRange at h
  rw [if_neg (by omega), if_neg (by omega), Int.toNat_natCast] at h
  obtain ⟨es, h1, h2⟩ := scanAt_log o st (16 - pos) (by omega) m hl s [] r (s', log) h
  simp only [List.nil_append] at h1
  rw [h1, visits_logOf es (scanRun_quiet _ _ _ h2)]
  exact h2

/-- C49: every probed mask is the given one with some of its wildcards, at the start position or later, replaced by decimal
digits. -/
theorem C49_refines {σ : Type} (o : Ops σ) (st : Settings) (s : σ) (pos : Nat) (m : List Byte) (hl : m.length = 16) (hp : pos < 16) (r : Int) (s' : σ)
    (log : List Act) (h : scanRange o.logged st (s, []) pos m = .ok (r, s', log)) : ∀ v ∈ visits log, Refines pos m v.1 := by
  intro v hv
  have := scanRun_refines (16 - pos) (by omega) m hl _ (scan_run o st s pos m r s' log hl hp h) v hv
  rwa [show 16 - (16 - pos) = pos by omega] at this

/-- C49: at most 10 + 100 + ... + 10^(16 - pos) masks are probed. -/
theorem C49_bound {σ : Type} (o : Ops σ) (st : Settings) (s : σ) (pos : Nat) (m : List Byte) (hl : m.length = 16) (hp : pos < 16) (r : Int) (s' : σ)
    (log : List Act) (h : scanRange o.logged st (s, []) pos m = .ok (r, s', log)) : 9 * (visits log).length + 10 ≤ 10 ^ (17 - pos) := by
  have := scanRun_length (16 - pos) m _ (scan_run o st s pos m r s' log hl hp h)
  have e := maxProbes_eq (16 - pos)
  rw [show 16 - pos + 1 = 17 - pos by omega] at e
  omega

/-- C49: a mask is probed only as a restriction (first wildcard replaced by a digit) of the given mask or of a mask that was probed
before and collided. -/
theorem C49_only_after_collision {σ : Type} (o : Ops σ) (st : Settings) (s : σ) (pos : Nat) (m : List Byte) (hl : m.length = 16) (hp : pos < 16) (r : Int) (s' : σ)
    (log : List Act) (h : scanRange o.logged st (s, []) pos m = .ok (r, s', log)) (a b : List (List Byte × List Act)) (v : List Byte × List Act)
    (hv : visits log = a ++ v :: b) : Restricts pos m v.1 ∨ ∃ w ∈ a, Collided w.2 ∧ Restricts pos w.1 v.1 := by
  have := scanRun_parent (16 - pos) (by omega) m hl _ (scan_run o st s pos m r s' log hl hp h) a v b hv
  rwa [show 16 - (16 - pos) = pos by omega] at this

/-- C49: and after a collision the scan goes on with the first restriction of the collided mask, if it has a wildcard left. -/
theorem C49_after_collision {σ : Type} (o : Ops σ) (st : Settings) (s : σ) (pos : Nat) (m : List Byte) (hl : m.length = 16) (hp : pos < 16) (r : Int) (s' : σ)
    (log : List Act) (h : scanRange o.logged st (s, []) pos m = .ok (r, s', log)) (a b : List (List Byte × List Act)) (v : List Byte × List Act)
    (hv : visits log = a ++ v :: b) (hc : Collided v.2) (q : Nat) (hq : FirstWild pos v.1 q) : ∃ l b', b = (v.1.set q 48, l) :: b' := by
  refine scanRun_continues (16 - pos) (by omega) m hl _ (scan_run o st s pos m r s' log hl hp h) a v b hv hc q ?_
  rwa [show 16 - (16 - pos) = pos by omega]

/-- C49: as long as no probe fails, nothing is left out: all ten restrictions of the given mask, and of every mask that collides, are
probed (the mask itself, if it has no wildcard). -/
theorem C49_complete {σ : Type} (o : Ops σ) (st : Settings) (s : σ) (pos : Nat) (m : List Byte) (hl : m.length = 16) (hp : pos < 16) (r : Int) (s' : σ)
    (log : List Act) (h : scanRange o.logged st (s, []) pos m = .ok (r, s', log)) (hf : ∀ v ∈ visits log, ¬ Failed v.2) :
    (∀ q d, FirstWild pos m q → IsDec d → ∃ v ∈ visits log, v.1 = m.set q d) ∧ (Fixed pos m → ∃ v ∈ visits log, v.1 = m) ∧
    ∀ w ∈ visits log, Collided w.2 → ∀ q d, FirstWild pos w.1 q → IsDec d → ∃ v ∈ visits log, v.1 = w.1.set q d := by
  have := scanRun_complete (16 - pos) (by omega) m hl _ hf (scan_run o st s pos m r s' log hl hp h)
  rw [show 16 - (16 - pos) = pos by omega] at this
  have hd : ∀ d, IsDec d → d ∈ decimalDigits := forall_byte (by decide +kernel)
  exact ⟨fun q d hq hdec => this.1 q hq d (hd d hdec), fun hx => this.2.1 (by omega) hx, fun w hw hc q d hq hdec => this.2.2 w hw hc q hq d (hd d hdec)⟩

/-- C49: and every one of these probes is a probe as in C75 with its mask. -/
theorem C49_probes {σ : Type} (o : Ops σ) (st : Settings) (s : σ) (pos : Nat) (m : List Byte) (hl : m.length = 16) (hp : pos < 16) (r : Int) (s' : σ)
    (log : List Act) (h : scanRange o.logged st (s, []) pos m = .ok (r, s', log)) :
    ∀ v ∈ visits log, ∃ r a, Probing v.1 (st.maxSearchRetry + 1).toNat r a v.2 :=
  scanRun_probed (16 - pos) m _ (scan_run o st s pos m r s' log hl hp h)

/-- C49 (what holds): no mask is probed twice if the last character of the mask is a wildcard, or none before it is. -/
theorem C49_once_partial {σ : Type} (o : Ops σ) (st : Settings) (s : σ) (pos : Nat) (m : List Byte) (hl : m.length = 16) (hp : pos < 16) (r : Int) (s' : σ)
    (log : List Act) (h : scanRange o.logged st (s, []) pos m = .ok (r, s', log))
    (hw : IsWild (m.getD 15 0) ∨ ∀ i, pos ≤ i → i < 15 → ¬ IsWild (m.getD i 0)) : ((visits log).map Prod.fst).Nodup := by
  refine scanRun_nodup (16 - pos) (by omega) m hl ?_ _ (scan_run o st s pos m r s' log hl hp h)
  rwa [show 16 - (16 - pos) = pos by omega]

/-- C49: outside 0..15 there is nothing to scan; a mask that is not 16 characters long is refused. -/
theorem C49_limits {σ : Type} (o : Ops σ) (st : Settings) (s : σ) (pos : Int) (m : List Byte) :
    (m.length ≠ 16 → scanRange o st s pos m = .ok (-1, s)) ∧
    (m.length = 16 → pos < 0 ∨ 16 ≤ pos → scanRange o st s pos m = .ok (0, s)) := by
  unfold scanRange
  exact ⟨fun h => by rw [if_pos h], fun h hp => by rw [if_neg (by omega), if_pos hp]⟩

/-- a line on which every transmission is answered with a byte that starts no telegram -/
def noisy : Env := { respond := fun _ => [.data [0xFF]], junk := fun _ => 0, wret := fun _ n => n, tty := true }

theorem noisy_probe (k : Kind) (st : Settings) (hst : 0 ≤ st.maxSearchRetry) (m : List Byte) (hm : AddressMask m) (sent : List (List Byte)) (log : List Act) :
    ∃ a sent' l, probeSecondary ((busLink k noisy).ops PURGE_M2S).logged st (⟨[], sent⟩, log) m = .ok (2, a, (⟨[], sent'⟩, log ++ l)) ∧ NoProgress l := by
  have hsel := select_garbage k noisy (.inr rfl) (fun _ _ => rfl) PURGE_M2S (by decide) sent m hm [[0xFF]] (by intro c hc; simp at hc; simp [hc]) rfl
    (.start _ _ (by unfold NoStart; decide))
  obtain ⟨l, h1, h2⟩ := select_lifted _ _ log _ _ _ hsel
  have hp : probeSecondary ((busLink k noisy).ops PURGE_M2S).logged st (⟨[], sent⟩, log) m = .ok (2, none, (⟨[], sent ++ [(selT m).wire]⟩, log ++ l)) := by
    unfold probeSecondary
    rw [if_neg (by have := hm.1; omega)]
    have : ∃ n, (st.maxSearchRetry + 1).toNat = n + 1 := ⟨st.maxSearchRetry.toNat, by omega⟩
    obtain ⟨n, hn⟩ := this
    rw [hn, probeLoop, h1, ok_bind]
    simp only
    rw [if_neg (by decide), if_pos (by decide)]
    rfl
  obtain ⟨l', e1, e2⟩ := probe_log _ st m hm.1 _ _ _ _ _ hp
  simp only [List.append_cancel_left_eq] at e1
  subst e1
  exact ⟨none, _, l, hp, probing_quiet e2⟩

theorem mask_set_hex (m : List Byte) (hm : AddressMask m) (p : Nat) (d : Byte) (hd : IsHex d) : AddressMask (m.set p d) := by
  refine ⟨by simp [hm.1], fun c hc => ?_⟩
  rcases List.mem_or_eq_of_mem_set hc with h | h
  · exact hm.2 c h
  · rw [h]; exact hd

theorem noisy_loop (k : Kind) (st : Settings) (hst : 0 ≤ st.maxSearchRetry) (p : Nat) (sub : Bus × List Act → List Byte → C (Int × Bus × List Act))
    (hsub : ∀ m, AddressMask m → ∀ sent log, ∃ r sent' l, sub (⟨[], sent⟩, log) m = .ok (r, (⟨[], sent'⟩, log ++ l)))
    (ds : List Byte) (hds : ∀ d ∈ ds, IsHex d) : ∀ (m : List Byte) (_ : AddressMask m) (sent : List (List Byte)) (log : List Act),
    ∃ sent' l, scanLoop ((busLink k noisy).ops PURGE_M2S).logged st p sub m ds (⟨[], sent⟩, log) = .ok (0, (⟨[], sent'⟩, log ++ l)) := by
  induction ds with
  | nil => intro m _ sent log; exact ⟨sent, [], by simp [scanLoop]⟩
  | cons d ds ih =>
    intro m hm sent log
    have hm' := mask_set_hex m hm p d (hds d (by simp))
    obtain ⟨a, sent1, l1, h1, _⟩ := noisy_probe k st hst (m.set p d) hm' sent (log ++ [.progress (m.set p d)])
    obtain ⟨r, sent2, l2, h2⟩ := hsub (m.set p d) hm' sent1 (log ++ [.progress (m.set p d)] ++ l1)
    obtain ⟨sent3, l3, h3⟩ := ih (fun d hd => hds d (by simp [hd])) (m.set p d) hm' sent2 (log ++ [.progress (m.set p d)] ++ l1 ++ l2)
    refine ⟨sent3, [.progress (m.set p d)] ++ l1 ++ l2 ++ l3, ?_⟩
    have h1' : probeSecondary ((busLink k noisy).ops PURGE_M2S).logged st (((busLink k noisy).ops PURGE_M2S).logged.progress (⟨[], sent⟩, log) (m.set p d)) (m.set p d) = .ok (2, a, (⟨[], sent1⟩, log ++ [.progress (m.set p d)] ++ l1)) := h1
    rw [scanLoop, h1', ok_bind]
    simp only
    rw [if_neg (by decide), if_pos (by decide), h2, ok_bind]
    simp only
    rw [h3]
    simp only [List.append_assoc]

/-- C49 (what does not hold): with a fixed last character, a mask that collides is probed again at the last position (it cannot be
restricted any further).  Here: mask 00000000000000F0 from position 14 on a noisy line. -/
theorem C49_repeated_mask_violation (k : Kind) (st : Settings) (hst : 0 ≤ st.maxSearchRetry) :
    ∃ r b log, scanRange ((busLink k noisy).ops PURGE_M2S).logged st (⟨[], []⟩, []) (14 : Nat) (List.replicate 14 48 ++ [70, 48]) = .ok (r, b, log) ∧
      ¬ ((visits log).map Prod.fst).Nodup := by
  generalize hmask : (List.replicate 14 48 ++ [70, 48] : List Byte) = m
  have hm : AddressMask m := by subst hmask; unfold AddressMask; decide +kernel
  have hl := hm.1
  have h14 : rd m 14 = .ok 70 := by subst hmask; decide +kernel
  have h15 : ∀ d, rd (m.set 14 d) 15 = .ok 48 := by
    intro d
    rw [rd_ok (by simp [hl])]
    subst hmask
    simp
  have hself : ∀ d, (m.set 14 d).set 15 48 = m.set 14 d := by
    intro d; subst hmask; rfl
  have hz : IsHex 48 := by decide
  have sub0 : ∀ m, AddressMask m → ∀ sent log, ∃ r sent' l, scanAt ((busLink k noisy).ops PURGE_M2S).logged st 0 (⟨[], sent⟩, log) m = .ok (r, ((⟨[], sent'⟩ : Bus), log ++ l)) :=
    fun m _ sent log => ⟨0, sent, [], by simp [scanAt]⟩
  have sub1 : ∀ m, AddressMask m → ∀ sent log, ∃ r sent' l, scanAt ((busLink k noisy).ops PURGE_M2S).logged st 1 (⟨[], sent⟩, log) m = .ok (r, ((⟨[], sent'⟩ : Bus), log ++ l)) := by
    intro m hm sent log
    have hl := hm.1
    rw [scanAt, rd_ok (by omega), ok_bind]
    have hc : IsHex (m[15 - 0]'(by omega)) := hm.2 _ (List.getElem_mem _)
    split
    · obtain ⟨sent', l, h⟩ := noisy_loop k st hst 15 _ sub0 decimalDigits (by decide +kernel) m hm sent log
      exact ⟨0, sent', l, h⟩
    · rw [if_neg (by omega)]
      obtain ⟨sent', l, h⟩ := noisy_loop k st hst 15 _ sub0 [m[15 - 0]'(by omega)] (by intro d hd; rw [List.mem_singleton.mp hd]; exact hc) m hm sent log
      exact ⟨0, sent', l, h⟩
  -- first digit
  have hm0 := mask_set_hex m hm 14 48 hz
  obtain ⟨a1, sent1, l1, p1, q1⟩ := noisy_probe k st hst (m.set 14 48) hm0 [] ([] ++ [.progress (m.set 14 48)])
  obtain ⟨a2, sent2, l2, p2, q2⟩ := noisy_probe k st hst (m.set 14 48) hm0 sent1 ([] ++ [.progress (m.set 14 48)] ++ l1 ++ [.progress (m.set 14 48)])
  obtain ⟨sent3, l3, p3⟩ := noisy_loop k st hst 14 _ sub1 [49, 50, 51, 52, 53, 54, 55, 56, 57] (by decide +kernel) (m.set 14 48) hm0 sent2
    ([] ++ [.progress (m.set 14 48)] ++ l1 ++ [.progress (m.set 14 48)] ++ l2)
  refine ⟨0, ⟨[], sent3⟩, [.progress (m.set 14 48)] ++ l1 ++ [.progress (m.set 14 48)] ++ l2 ++ l3, ?_, ?_⟩
  · unfold scanRange
    rw [if_neg (by omega), if_neg (by omega), show 16 - Int.toNat ((14 : Nat) : Int) = 1 + 1 from rfl, scanAt, h14, ok_bind, if_pos (.inr rfl)]
    have p1' : probeSecondary ((busLink k noisy).ops PURGE_M2S).logged st (((busLink k noisy).ops PURGE_M2S).logged.progress (⟨[], []⟩, []) (m.set 14 48)) (m.set 14 48) = .ok (2, a1, (⟨[], sent1⟩, [] ++ [.progress (m.set 14 48)] ++ l1)) := p1
    rw [decimalDigits, scanLoop]
    show (probeSecondary ((busLink k noisy).ops PURGE_M2S).logged st (((busLink k noisy).ops PURGE_M2S).logged.progress (⟨[], []⟩, []) (m.set 14 48)) (m.set 14 48) >>= _) = _
    rw [p1', ok_bind]
    simp only
    rw [if_neg (by decide), if_pos (by decide), scanAt, h15, ok_bind, if_neg (by decide), if_neg (by omega), scanLoop, hself]
    have p2' : probeSecondary ((busLink k noisy).ops PURGE_M2S).logged st (((busLink k noisy).ops PURGE_M2S).logged.progress (⟨[], sent1⟩, [] ++ [.progress (m.set 14 48)] ++ l1) (m.set 14 48)) (m.set 14 48) = .ok (2, a2, (⟨[], sent2⟩, [] ++ [.progress (m.set 14 48)] ++ l1 ++ [.progress (m.set 14 48)] ++ l2)) := p2
    rw [p2', ok_bind]
    simp only
    rw [if_neg (by decide), if_pos (by decide), scanAt, ok_bind]
    simp only
    rw [scanLoop, ok_bind]
    simp only
    exact p3
  · have : visits ([.progress (m.set 14 48)] ++ l1 ++ [.progress (m.set 14 48)] ++ l2 ++ l3) =
        (m.set 14 48, l1) :: visits ([.progress (m.set 14 48)] ++ l2 ++ l3) := by
      simp only [List.append_assoc, List.cons_append, List.nil_append]
      rw [visits, visits_skip _ _ q1, takeWhile_quiet _ _ q1 (by simp [isProgress])]
    rw [this]
    simp only [List.cons_append, List.nil_append]
    rw [visits]
    simp

/-! the hypotheses are met: a complete scan of the bus with two meters, and a probe on the noisy line -/

example (k : Kind) : ∃ b log, scanRange ((busLink k (idealBus twoMeters)).ops PURGE_M2S).logged ⟨3, 1, PURGE_M2S⟩ (⟨[], []⟩, []) (0 : Nat) allWild =
    .ok (0, b, log) ∧ allWild.length = 16 ∧ IsWild (allWild.getD 15 0) := by
  obtain ⟨sent', log, es, h, _⟩ := C48_scan_finds_all k _ _ _ _ (twoMeters_scannable k) []
  exact ⟨_, log, h, rfl, .inl rfl⟩

example (k : Kind) : ∃ a b log, probeSecondary ((busLink k noisy).ops PURGE_M2S).logged ⟨3, 1, PURGE_M2S⟩ (⟨[], []⟩, []) allWild = .ok (2, a, b, log) := by
  obtain ⟨a, sent', l, h, _⟩ := noisy_probe k ⟨3, 1, PURGE_M2S⟩ (by decide) allWild (idMask_address _ allWild_mask) [] []
  exact ⟨a, _, _, h⟩

/-- a handle on a bus without meters -/
def silentOps : Ops Unit where
  send s f := .ok (0, f, s)
  recv s f := .ok (RECV_TIMEOUT, f, s)
  purge s := .ok (0, s)
  progress s _ := s
  found s _ _ := s

/-- the last thing that happens is that something is received -/
def endsReceived (l : List Act) : Bool := match l.getLast? with
  | some (.received _ _) => true
  | _ => false

theorem endsReceived_not_failed (l : List Act) (h : endsReceived l = true) : ¬ Failed l := by
  rintro (rfl | ⟨pre, f, rfl⟩)
  · cases h
  · simp [endsReceived] at h

/-- a scan from the last position: ten probes, none of which fails -/
example : ∃ log, scanRange silentOps.logged ⟨0, 0, PURGE_M2S⟩ ((), []) (15 : Nat) allWild = .ok (0, (), log) ∧
    (visits log).length = 10 ∧ ∀ v ∈ visits log, ¬ Failed v.2 := by
  have h : (match scanRange silentOps.logged ⟨0, 0, PURGE_M2S⟩ ((), []) (15 : Nat) allWild with
    | .ok (r, _, log) => decide (r = 0) && ((visits log).length == 10) && (visits log).all (fun v => endsReceived v.2)
    | .error _ => false) = true := by decide +kernel
  split at h
  · rename_i r s log heq
    simp only [Bool.and_eq_true, decide_eq_true_eq, beq_iff_eq, List.all_eq_true] at h
    obtain ⟨⟨rfl, h2⟩, h3⟩ := h
    exact ⟨log, heq, h2, fun v hv => endsReceived_not_failed _ (h3 v hv)⟩
  · cases h

/-- C49 applied to the scan of the two meters -/
example (k : Kind) : ∃ b log, scanRange ((busLink k (idealBus twoMeters)).ops PURGE_M2S).logged ⟨3, 1, PURGE_M2S⟩ (⟨[], []⟩, []) (0 : Nat) allWild = .ok (0, b, log) ∧
    (∀ v ∈ visits log, Refines 0 allWild v.1) ∧ 9 * (visits log).length + 10 ≤ 10 ^ 17 ∧ ((visits log).map Prod.fst).Nodup ∧
    (∀ v ∈ visits log, ∃ r a, Probing v.1 2 r a v.2) ∧
    (∀ a v b', visits log = a ++ v :: b' → Restricts 0 allWild v.1 ∨ ∃ w ∈ a, Collided w.2 ∧ Restricts 0 w.1 v.1) ∧
    (∀ a v b', visits log = a ++ v :: b' → Collided v.2 → ∀ q, FirstWild 0 v.1 q → ∃ l b'', b' = (v.1.set q 48, l) :: b'') := by
  obtain ⟨sent', log, es, h, _⟩ := C48_scan_finds_all k _ _ _ _ (twoMeters_scannable k) []
  exact ⟨_, log, h, C49_refines _ _ _ 0 allWild rfl (by decide) _ _ _ h, C49_bound _ _ _ 0 allWild rfl (by decide) _ _ _ h,
    C49_once_partial _ _ _ 0 allWild rfl (by decide) _ _ _ h (.inl (by unfold IsWild; decide)), C49_probes _ _ _ 0 allWild rfl (by decide) _ _ _ h,
    fun a v b' => C49_only_after_collision _ _ _ 0 allWild rfl (by decide) _ _ _ h a b' v,
    fun a v b' hv hc => C49_after_collision _ _ _ 0 allWild rfl (by decide) _ _ _ h a b' v hv hc⟩

/-- C49_complete applied to the scan from the last position: the ten digits are all tried -/
example : ∃ log, scanRange silentOps.logged ⟨0, 0, PURGE_M2S⟩ ((), []) (15 : Nat) allWild = .ok (0, (), log) ∧
    ∀ d, IsDec d → ∃ v ∈ visits log, v.1 = allWild.set 15 d := by
  have h : (match scanRange silentOps.logged ⟨0, 0, PURGE_M2S⟩ ((), []) (15 : Nat) allWild with
    | .ok (r, _, log) => decide (r = 0) && (visits log).all (fun v => endsReceived v.2)
    | .error _ => false) = true := by decide +kernel
  split at h
  · rename_i r s log heq
    simp only [Bool.and_eq_true, decide_eq_true_eq, List.all_eq_true] at h
    obtain ⟨rfl, h3⟩ := h
    exact ⟨log, heq, fun d hd => (C49_complete _ _ _ 15 allWild rfl (by decide) _ _ _ heq fun v hv => endsReceived_not_failed _ (h3 v hv)).1 15 d
      ⟨by decide, by decide, by unfold IsWild; decide, by omega⟩ hd⟩
  · cases h

/-- C75 applied to a probe on the noisy line: outcome 2, nothing reported -/
example (k : Kind) : ∃ a b log, probeSecondary ((busLink k noisy).ops PURGE_M2S).logged ⟨3, 1, PURGE_M2S⟩ (⟨[], []⟩, []) allWild = .ok (2, a, b, log) ∧
    Probing allWild 2 2 a log ∧ Collided log ∧ foundOf log = [] := by
  obtain ⟨a, sent', l, h, _⟩ := noisy_probe k ⟨3, 1, PURGE_M2S⟩ (by decide) allWild (idMask_address _ allWild_mask) [] []
  have p := (C75_probe _ ⟨3, 1, PURGE_M2S⟩ _ allWild rfl 2 a _).2 _ h
  obtain ⟨_, h2, _, h4, _⟩ := C75_outcomes allWild _ 2 a _ p
  exact ⟨a, _, _, h, p, h2.mp rfl, h4 (by decide)⟩
example := C75_mask_length silentOps ⟨3, 1, PURGE_M2S⟩ () (allWild.take 15) (by decide)

end Mbus
