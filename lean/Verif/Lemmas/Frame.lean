import Verif.Spec.Link
/- Helper lemmas about the link-layer model: closed forms of the loops and of parse / pack. -/
namespace Mbus
open Spec

theorem byteSum_append (a b : List Byte) : byteSum (a ++ b) = byteSum a + byteSum b := by
  induction a with
  | nil => simp [byteSum]
  | cons x xs ih => simp [byteSum, ih, UInt8.add_assoc]

theorem Buf.rd_ok {n : Nat} (b : Buf n) {i : Nat} (h : i < n) :
    b.rd i = .ok (b.bytes[i]'(by simpa using h)) := by
  unfold Buf.rd; exact Mbus.rd_ok _

theorem Buf.rd_fault {n : Nat} (b : Buf n) {i : Nat} (h : n ≤ i) :
    b.rd i = .error (.oobRead n i) := by
  unfold Buf.rd Mbus.rd
  rw [List.getElem?_eq_none (by simpa using h)]; simp

/-- The checksum loop. -/
theorem checksum_loop (b : Buf 252) (n i : Nat) (c : Byte) (h : i + n ≤ 252) :
    forN n i c (fun i ck => do let x ← b.rd i; .ok (ck + x)) =
      .ok (c + byteSum ((b.bytes.drop i).take n)) := by
  induction n generalizing i c with
  | zero => simp [forN, byteSum]
  | succ n ih =>
    have hi : i < b.bytes.length := by simp; omega
    rw [forN, Buf.rd_ok b (by omega)]
    simp only [ok_bind]
    rw [ih (i + 1) _ (by omega)]
    rw [List.drop_eq_getElem_cons hi, List.take_succ_cons, byteSum, UInt8.add_assoc]

theorem checksum_loop_fault (b : Buf 252) (n i : Nat) (c : Byte) (h : 252 < i + n) (hi : i ≤ 252) :
    forN n i c (fun i ck => do let x ← b.rd i; .ok (ck + x)) = .error (.oobRead 252 252) := by
  induction n generalizing i c with
  | zero => omega
  | succ n ih =>
    rw [forN]
    by_cases h' : i = 252
    · subst h'; rw [Buf.rd_fault b (by omega)]; rfl
    · rw [Buf.rd_ok b (by omega)]
      simp only [ok_bind]
      exact ih (i + 1) _ (by omega) (by omega)

/-- What the checksum field must be. -/
def specChecksum (f : Frame) : Byte :=
  if f.type = 2 then f.control + f.address
  else if f.type = 3 then byteSum [f.control, f.address, f.ci]
  else if f.type = 4 then byteSum (f.control :: f.address :: f.ci :: f.data.bytes.take f.dataSize)
  else 0

theorem calcChecksum_eq (f : Frame) (h : f.type = 4 → f.dataSize ≤ 252) :
    calcChecksum f = .ok (specChecksum f) := by
  unfold calcChecksum specChecksum TYPE_SHORT TYPE_CONTROL TYPE_LONG
  split
  · rfl
  split
  · simp [byteSum, UInt8.add_assoc]
  split
  · rename_i h4
    rw [checksum_loop _ _ _ _ (by have := h h4; omega)]
    simp [byteSum, UInt8.add_assoc]
  · rfl

theorem calcChecksum_fault (f : Frame) (h : f.type = 4) (h' : 252 < f.dataSize) :
    calcChecksum f = .error (.oobRead 252 252) := by
  unfold calcChecksum TYPE_SHORT TYPE_CONTROL TYPE_LONG
  simp only [h]
  exact checksum_loop_fault _ _ _ _ (by omega) (by omega)

theorem mem_shortCodes (c : Byte) : (c ≠ MASK_SND_NKE ∧ c ≠ MASK_REQ_UD1 ∧ c ≠ (MASK_REQ_UD1 ||| MASK_FCB) ∧
            c ≠ MASK_REQ_UD2 ∧ c ≠ (MASK_REQ_UD2 ||| MASK_FCB)) ↔ c ∉ shortCodes := by
  have e1 : MASK_REQ_UD1 ||| MASK_FCB = 0x7A := by decide
  have e2 : MASK_REQ_UD2 ||| MASK_FCB = 0x7B := by decide
  rw [e1, e2]
  simp [shortCodes, MASK_SND_NKE, MASK_REQ_UD1, MASK_REQ_UD2]

theorem mem_dataCodes (c : Byte) : (c ≠ MASK_SND_UD ∧ c ≠ (MASK_SND_UD ||| MASK_FCB) ∧ c ≠ MASK_RSP_UD ∧
            c ≠ (MASK_RSP_UD ||| MASK_DFC) ∧ c ≠ (MASK_RSP_UD ||| MASK_ACD) ∧
            c ≠ (MASK_RSP_UD ||| MASK_DFC ||| MASK_ACD)) ↔ c ∉ dataCodes := by
  have e1 : MASK_SND_UD ||| MASK_FCB = 0x73 := by decide
  have e2 : MASK_RSP_UD ||| MASK_DFC = 0x18 := by decide
  have e3 : MASK_RSP_UD ||| MASK_ACD = 0x28 := by decide
  have e4 : MASK_RSP_UD ||| MASK_DFC ||| MASK_ACD = 0x38 := by decide
  rw [e1, e4, e2, e3]
  simp [dataCodes, MASK_SND_UD, MASK_RSP_UD]

/-- For non-ACK frames whose payload fits, verification decides well-formedness. -/
theorem frameVerify_eq (f : Frame) (h : f.type = 4 → f.dataSize ≤ 252) (hk : f.type ≠ 1) :
    frameVerify f = .ok (if WellFormed f then 0 else -1) := by
  unfold frameVerify
  simp only [mem_shortCodes, mem_dataCodes, calcChecksum_eq f h, ok_bind]
  unfold TYPE_ACK TYPE_SHORT TYPE_CONTROL TYPE_LONG SHORT_START CONTROL_START FRAME_STOP
  simp only [hk, if_false]
  unfold WellFormed specChecksum calcLength TYPE_CONTROL TYPE_LONG
  by_cases h2 : f.type = 2
  · grind
  by_cases h3 : f.type = 3
  · grind
  by_cases h4 : f.type = 4
  · grind
  · grind

/-- The payload copy loop of the parser: bytes `[7+i, 7+i+n)` of the input go to `[i, i+n)`. -/
theorem copy_loop (data : List Byte) (n i : Nat) (b : Buf 252) (h : i + n ≤ 252) (hd : 7 + i + n ≤ data.length) :
    ∃ b' : Buf 252, forN n i b (fun i b => do let x ← rd data (7 + i); b.wr i x) = .ok b' ∧
      b'.bytes = b.bytes.take i ++ ((data.drop (7 + i)).take n ++ b.bytes.drop (i + n)) := by
  induction n generalizing i b with
  | zero => exact ⟨b, by simp [forN], by simp⟩
  | succ n ih =>
    rw [forN, rd_ok (by omega)]
    simp only [ok_bind, Buf.wr]
    rw [if_pos (by omega)]
    simp only [ok_bind]
    obtain ⟨b', h1, h2⟩ := ih (i + 1) ⟨b.bytes.set i data[7 + i], by simp⟩ (by omega) (by omega)
    refine ⟨b', h1, ?_⟩
    rw [h2]
    have hi : i < b.bytes.length := by simp; omega
    have e1 : (b.bytes.set i data[7 + i]).take (i + 1) = b.bytes.take i ++ [data[7 + i]] := by
      rw [List.take_add_one, List.take_set_of_le (by omega), List.getElem?_set_self hi]
      rfl
    have e2 : (b.bytes.set i data[7 + i]).drop (i + 1 + n) = b.bytes.drop (i + (n + 1)) := by
      rw [List.drop_set_of_lt (by omega)]
      congr 1; omega
    rw [e1, e2, List.drop_eq_getElem_cons (show 7 + i < data.length by omega), List.take_succ_cons]
    simp [Nat.add_assoc]

/-- Frame object after the long branch of the parser stored everything. -/
def longFrame (f : Frame) (l s2 c a ci : Byte) (p : List Byte) (ck st : Byte) (b : Buf 252) : Frame :=
  { f with start1 := 0x68, length1 := l, length2 := l, start2 := s2, control := c, address := a, ci := ci,
           dataSize := p.length, data := b, checksum := ck, stop := st,
           type := if p = [] then 3 else 4 }

theorem verify_tail (P : Prop) [Decidable P] (F : Frame) :
    (if ¬ (if P then (0 : Int) else -1) = 0 then (Except.ok (-3, F) : C (Int × Frame)) else .ok (0, F)) =
      .ok (if P then 0 else -3, F) := by
  by_cases h : P <;> simp [h]

/-- Closed form of the complete long/control branch. -/
theorem parse_long (f : Frame) (l s2 c a ci ck st : Byte) (p rest : List Byte) (hl : l.toNat = p.length + 3) :
    ∃ b : Buf 252, b.bytes = p ++ f.data.bytes.drop p.length ∧
      mbusParse f (0x68 :: l :: l :: s2 :: c :: a :: ci :: (p ++ ck :: st :: rest)) (p.length + 9) =
        .ok (if WellFormed (longFrame f l s2 c a ci p ck st b) then 0 else -3, longFrame f l s2 c a ci p ck st b) := by
  have hp : p.length ≤ 252 := by have := l.toNat_lt; omega
  obtain ⟨b, hb1, hb2⟩ := copy_loop (0x68 :: l :: l :: s2 :: c :: a :: ci :: (p ++ ck :: st :: rest)) p.length 0
    f.data (by omega) (by simp; omega)
  refine ⟨b, by simpa using hb2, ?_⟩
  generalize hD : (0x68 :: l :: l :: s2 :: c :: a :: ci :: (p ++ ck :: st :: rest) : List Byte) = D at *
  have r0 : rd D 0 = .ok 0x68 := by subst hD; rfl
  have r1 : rd D 1 = .ok l := by subst hD; rfl
  have r2 : rd D 2 = .ok l := by subst hD; rfl
  have r3 : rd D 3 = .ok s2 := by subst hD; rfl
  have r4 : rd D 4 = .ok c := by subst hD; rfl
  have r5 : rd D 5 = .ok a := by subst hD; rfl
  have r6 : rd D 6 = .ok ci := by subst hD; rfl
  have r7 : rd D (p.length + 9 - 2) = .ok ck := by
    subst hD
    rw [rd_eq_ok, show p.length + 9 - 2 = p.length + 7 by omega]; simp
  have r8 : rd D (p.length + 9 - 1) = .ok st := by
    subst hD
    rw [rd_eq_ok, show p.length + 9 - 1 = (p.length + 1) + 7 by omega]
    simp only [List.getElem?_cons_succ]
    rw [List.getElem?_append_right (by omega)]; simp
  have g0 : ¬ (p.length + 9 = 0) := by omega
  have g0' : ¬ (p.length + 9 < 3) := by omega
  have g1 : ¬ (l < 3) := by
    intro h
    have := UInt8.lt_iff_toNat_lt.mp h
    simp at this; omega
  have g2 : ¬ (p.length + 9 < 6 + l.toNat) := by omega
  have g3 : ¬ (p.length + 9 > 6 + l.toNat) := by omega
  have g4 : l.toNat - 3 = p.length := by omega
  have k0 : ((0x68 : Byte) = ACK_START) = False := eq_false (by decide)
  have k1 : ((0x68 : Byte) = SHORT_START) = False := eq_false (by decide)
  have k2 : ((0x68 : Byte) = LONG_START) = True := eq_true (by decide)
  unfold mbusParse
  simp only [r0, r1, r2, r3, r4, r5, r6, r7, r8, g0, g0', g1, g2, g3, g4, hb1, ok_bind, if_false, if_true,
    k0, k1, k2, ne_eq, not_true_eq_false]
  have e : (if p.length = 0 then TYPE_CONTROL else TYPE_LONG) = (if p = [] then 3 else 4) := by
    cases p <;> simp [TYPE_CONTROL, TYPE_LONG]
  simp only [e]
  have hv := frameVerify_eq (longFrame f l s2 c a ci p ck st b) (fun _ => hp) (by
    unfold longFrame; cases p <;> simp)
  unfold longFrame at hv ⊢
  simp only [hv, ok_bind]
  exact verify_tail _ _

/-- Frame object after the short branch of the parser stored everything. -/
def shortFrame (f : Frame) (c a ck st : Byte) : Frame :=
  { f with start1 := 0x10, control := c, address := a, checksum := ck, stop := st, type := 2 }

theorem parse_short (f : Frame) (c a ck st : Byte) (rest : List Byte) :
    mbusParse f (0x10 :: c :: a :: ck :: st :: rest) 5 =
      .ok (if WellFormed (shortFrame f c a ck st) then 0 else -3, shortFrame f c a ck st) := by
  have hv := frameVerify_eq (shortFrame f c a ck st) (by simp [shortFrame]) (by simp [shortFrame])
  unfold mbusParse
  simp only [rd, List.getElem?_cons_zero, List.getElem?_cons_succ, ok_bind]
  have k0 : ((0x10 : Byte) = ACK_START) = False := eq_false (by decide)
  simp only [k0, if_false, if_true, show TYPE_SHORT = 2 from rfl, show SHORT_START = 0x10 from rfl]
  unfold shortFrame at hv ⊢
  simp only [hv, ok_bind]
  exact verify_tail _ _

/-- The parser looks only at the first `size` bytes. -/
theorem parse_take (f : Frame) (data : List Byte) (size : Nat) (h : size ≤ data.length) :
    mbusParse f data size = mbusParse f (data.take size) size := by
  have hr : ∀ i, i < size → rd data i = rd (data.take size) i := by
    intro i hi
    rw [rd_ok (by omega), rd_ok (by simp; omega)]
    simp
  have hl : ∀ n i (b : Buf 252), 7 + i + n ≤ size →
      forN n i b (fun i b => do let x ← rd data (7 + i); b.wr i x) =
      forN n i b (fun i b => do let x ← rd (data.take size) (7 + i); b.wr i x) := by
    intro n
    induction n with
    | zero => intros; rfl
    | succ n ih =>
      intro i b hs
      rw [forN, forN, hr (7 + i) (by omega)]
      congr 1
      funext s'
      exact ih (i + 1) s' (by omega)
  unfold mbusParse
  by_cases h0 : size = 0
  · rw [if_pos h0, if_pos h0]
  rw [if_neg h0, if_neg h0]
  rw [hr 0 (by omega)]
  congr 1; funext d0
  by_cases k0 : d0 = ACK_START
  · rw [if_pos k0, if_pos k0]
  rw [if_neg k0, if_neg k0]
  by_cases k1 : d0 = SHORT_START
  · rw [if_pos k1, if_pos k1]
    by_cases k2 : size < 5
    · rw [if_pos k2, if_pos k2]
    rw [if_neg k2, if_neg k2]
    by_cases k3 : size ≠ 5
    · rw [if_pos k3, if_pos k3]
    rw [if_neg k3, if_neg k3]
    rw [hr 1 (by omega), hr 2 (by omega), hr 3 (by omega), hr 4 (by omega)]
  rw [if_neg k1, if_neg k1]
  by_cases k2 : d0 = LONG_START
  · rw [if_pos k2, if_pos k2]
    by_cases k3 : size < 3
    · rw [if_pos k3, if_pos k3]
    rw [if_neg k3, if_neg k3]
    rw [hr 1 (by omega), hr 2 (by omega)]
    congr 1; funext l1; congr 1; funext l2
    dsimp only
    by_cases g1 : l1 < 3
    · rw [if_pos g1, if_pos g1]
    rw [if_neg g1, if_neg g1]
    by_cases g2 : l1 ≠ l2
    · rw [if_pos g2, if_pos g2]
    rw [if_neg g2, if_neg g2]
    by_cases g3 : size < 6 + l1.toNat
    · rw [if_pos g3, if_pos g3]
    rw [if_neg g3, if_neg g3]
    by_cases g4 : size > 6 + l1.toNat
    · rw [if_pos g4, if_pos g4]
    rw [if_neg g4, if_neg g4]
    have g5 : 3 ≤ l1.toNat := by
      by_cases hh : l1.toNat < 3
      · exact absurd (UInt8.lt_iff_toNat_lt.mpr (by simpa using hh)) g1
      · omega
    rw [hr 3 (by omega), hr 4 (by omega), hr 5 (by omega), hr 6 (by omega), hl _ _ _ (by omega),
      hr (size - 2) (by omega), hr (size - 1) (by omega)]
  · rw [if_neg k2, if_neg k2]

/-- Every list of `p + 9` bytes splits into seven header bytes, payload, and two trailer bytes. -/
theorem split_long (bs : List Byte) (n : Nat) (h : bs.length = n + 9) :
    ∃ b0 b1 b2 b3 b4 b5 b6 p ck st, p.length = n ∧
      bs = b0 :: b1 :: b2 :: b3 :: b4 :: b5 :: b6 :: (p ++ [ck, st]) := by
  match bs, h with
  | b0 :: b1 :: b2 :: b3 :: b4 :: b5 :: b6 :: r, h =>
    have hr : r.length = n + 2 := by simp at h; omega
    have hd : (r.drop n).length = 2 := by simp [hr]
    obtain ⟨ck, st, he⟩ : ∃ ck st, r.drop n = [ck, st] := by
      match r.drop n, hd with
      | [x, y], _ => exact ⟨x, y, rfl⟩
    refine ⟨b0, b1, b2, b3, b4, b5, b6, r.take n, ck, st, by simp; omega, ?_⟩
    rw [← he, List.take_append_drop]
  | [], h => simp at h
  | [_], h => simp at h
  | [_, _], h => simp at h
  | [_, _, _], h => simp at h
  | [_, _, _, _], h => simp at h
  | [_, _, _, _, _], h => simp at h
  | [_, _, _, _, _, _], h => simp at h

/-- The return code of the parser as a function of the bytes alone. -/
def code : List Byte → Int
  | [] => -1
  | d0 :: r =>
    if d0 = 0xE5 then 0
    else if d0 = 0x10 then
      match r with
      | [c, a, ck, st] => if c ∈ shortCodes ∧ ck = c + a ∧ st = 0x16 then 0 else -3
      | _ => if r.length < 4 then 4 - (r.length : Int) else -2
    else if d0 = 0x68 then
      match r with
      | [] => 2
      | [_] => 1
      | l1 :: l2 :: q =>
        if l1.toNat < 3 ∨ l1 ≠ l2 then -2
        else if q.length < 3 + l1.toNat then ((3 + l1.toNat - q.length : Nat) : Int)
        else if 3 + l1.toNat < q.length then -2
        else
          let t := Telegram.data (q.getD 1 0) (q.getD 2 0) (q.getD 3 0) ((q.drop 4).take (l1.toNat - 3))
          if t.Legal ∧ d0 :: l1 :: l2 :: q = t.wire then 0 else -3
    else -4

theorem wf_short (f : Frame) (c a ck st : Byte) :
    WellFormed (shortFrame f c a ck st) ↔ c ∈ shortCodes ∧ ck = c + a ∧ st = 0x16 := by
  unfold WellFormed shortFrame
  grind

theorem wf_long (f : Frame) (l s2 c a ci ck st : Byte) (p : List Byte) (b : Buf 252)
    (hl : l.toNat = p.length + 3) (hb : b.bytes = p ++ f.data.bytes.drop p.length) :
    WellFormed (longFrame f l s2 c a ci p ck st b) ↔
      (Telegram.data c a ci p).Legal ∧
        0x68 :: l :: l :: s2 :: c :: a :: ci :: (p ++ [ck, st]) = (Telegram.data c a ci p).wire := by
  have hp : p.length ≤ 252 := by have := l.toNat_lt; omega
  have hl' : UInt8.ofNat (p.length + 3) = l := by rw [← hl]; simp
  have ht : b.bytes.take p.length = p := by rw [hb]; simp
  unfold WellFormed longFrame Telegram.Legal Telegram.wire
  simp only [hl', hp, and_true]
  by_cases hn : p = []
  · subst hn
    simp at hl'
    subst hl'
    simp
    grind
  · simp [hn, ht]
    grind

theorem parse_code (f : Frame) (bs : List Byte) :
    ∃ f', mbusParse f bs bs.length = .ok (code bs, f') ∧
      (code bs = 0 →
        (bs.head? = some 0xE5 ∧ Carries f' .ack ∧ f'.start1 = 0xE5) ∨
        (∃ t : Telegram, t ≠ .ack ∧ t.Legal ∧ bs = t.wire ∧ Carries f' t ∧ WellFormed f')) := by
  match bs with
  | [] => exact ⟨f, by simp [mbusParse, code], by simp [code]⟩
  | d0 :: r =>
    by_cases h0 : d0 = 0xE5
    · subst h0
      refine ⟨{ f with start1 := 0xE5, type := 1 }, ?_, ?_⟩
      · simp [mbusParse, code, rd, ACK_START, TYPE_ACK]
      · intro; left; simp [Carries]
    by_cases h1 : d0 = 0x10
    · subst h1
      by_cases h5 : r.length = 4
      · match r, h5 with
        | [c, a, ck, st], _ =>
          refine ⟨shortFrame f c a ck st, ?_, ?_⟩
          · rw [show [0x10, c, a, ck, st].length = 5 from rfl, parse_short f c a ck st []]
            simp only [wf_short]; simp [code]
          · intro hc
            right
            have hw : c ∈ shortCodes ∧ ck = c + a ∧ st = 0x16 := by
              simp [code] at hc
              exact hc
            refine ⟨.short c a, by simp, hw.1, ?_, ?_, (wf_short f c a ck st).mpr hw⟩
            · simp [Telegram.wire, hw.2.1, hw.2.2]
            · simp [Carries, shortFrame]
      · have hc : code (0x10 :: r) = if r.length < 4 then 4 - (r.length : Int) else -2 := by
          simp only [code]
          split
          · contradiction
          split
          · split
            · simp at h5
            · rfl
          · simp at *
        refine ⟨f, ?_, ?_⟩
        · rw [hc]
          simp [mbusParse, rd, ACK_START, SHORT_START]
          by_cases hlt : r.length < 4
          · have : r.length + 1 < 5 := by omega
            simp [hlt, this]; omega
          · have : ¬ (r.length + 1 < 5) := by omega
            simp [hlt, h5, this]
        · rw [hc]; split <;> omega
    by_cases h2 : d0 = 0x68
    · subst h2
      match r with
      | [] => exact ⟨f, by simp [mbusParse, code, rd, ACK_START, SHORT_START, LONG_START], by simp [code]⟩
      | [x] => exact ⟨f, by simp [mbusParse, code, rd, ACK_START, SHORT_START, LONG_START], by simp [code]⟩
      | l1 :: l2 :: q =>
        by_cases g1 : l1.toNat < 3 ∨ l1 ≠ l2
        · refine ⟨{ f with start1 := 0x68, length1 := l1, length2 := l2 }, ?_, ?_⟩
          · have e3 : ¬ (q.length + 1 + 1 + 1 < 3) := by omega
            by_cases hh : l1 < 3
            · simp [mbusParse, code, rd, ACK_START, SHORT_START, LONG_START, g1, hh, e3]
            · have hne : l1 ≠ l2 := by
                rcases g1 with g | g
                · exact absurd (UInt8.lt_iff_toNat_lt.mpr (by simpa using g)) hh
                · exact g
              simp [mbusParse, code, rd, ACK_START, SHORT_START, LONG_START, hh, hne, e3]
          · simp [code, g1]
        have g1' : l1 = l2 ∧ 3 ≤ l1.toNat := by
          simp at g1; exact ⟨g1.2, g1.1⟩
        obtain ⟨rfl, g3⟩ := g1'
        have g3' : ¬ l1 < 3 := by
          intro h
          have := UInt8.lt_iff_toNat_lt.mp h
          simp at this; omega
        by_cases g4 : q.length < 3 + l1.toNat
        · refine ⟨{ f with start1 := 0x68, length1 := l1, length2 := l1 }, ?_, ?_⟩
          · have e : 6 + l1.toNat - (q.length + 1 + 1 + 1) = 3 + l1.toNat - q.length := by omega
            have e2 : q.length + 1 + 1 + 1 < 6 + l1.toNat := by omega
            have e3 : ¬ (q.length + 1 + 1 + 1 < 3) := by omega
            simp [mbusParse, code, rd, ACK_START, SHORT_START, LONG_START, g3, g3', g4, e, e2, e3]
          · simp [code, g4]; omega
        by_cases g5 : 3 + l1.toNat < q.length
        · refine ⟨{ f with start1 := 0x68, length1 := l1, length2 := l1 }, ?_, ?_⟩
          · have e2 : ¬ (q.length + 1 + 1 + 1 < 6 + l1.toNat) := by omega
            have e3 : ¬ (q.length + 1 + 1 + 1 < 3) := by omega
            have e4 : 6 + l1.toNat < q.length + 1 + 1 + 1 := by omega
            simp [mbusParse, code, rd, ACK_START, SHORT_START, LONG_START, g3', g4, g5, e2, e3, e4]
          · simp [code, g4, g5]
        obtain ⟨b0, b1, b2, s2, c, a, ci, p, ck, st, hp, he⟩ :=
          split_long (0x68 :: l1 :: l1 :: q) (l1.toNat - 3) (by simp; omega)
        obtain ⟨e0, e1, e2, e3⟩ : b0 = 0x68 ∧ b1 = l1 ∧ b2 = l1 ∧ q = s2 :: c :: a :: ci :: (p ++ [ck, st]) := by
          simp at he; grind
        subst e3
        have hl : l1.toNat = p.length + 3 := by omega
        obtain ⟨b, hb, hr⟩ := parse_long f l1 s2 c a ci ck st p [] hl
        have hw := wf_long f l1 s2 c a ci ck st p b hl hb
        have hcode : code (0x68 :: l1 :: l1 :: s2 :: c :: a :: ci :: (p ++ [ck, st])) =
            if WellFormed (longFrame f l1 s2 c a ci p ck st b) then 0 else -3 := by
          have ht : (p ++ [ck, st]).take (l1.toNat - 3) = p := by rw [← hp]; simp
          simp only [code]
          rw [if_neg (by decide), if_neg (by decide), if_pos trivial, if_neg g1, if_neg g4, if_neg g5]
          simp only [List.getD_cons_succ, List.getD_cons_zero, List.drop_succ_cons, List.drop_zero, ht]
          simp only [hw]
        refine ⟨longFrame f l1 s2 c a ci p ck st b, ?_, ?_⟩
        · rw [hcode]
          rw [show (0x68 :: l1 :: l1 :: s2 :: c :: a :: ci :: (p ++ [ck, st])).length = p.length + 9 by simp]
          exact hr
        · intro hz
          rw [hcode] at hz
          have hwf : WellFormed (longFrame f l1 s2 c a ci p ck st b) := by
            by_cases hh : WellFormed (longFrame f l1 s2 c a ci p ck st b)
            · exact hh
            · rw [if_neg hh] at hz; simp at hz
          right
          refine ⟨.data c a ci p, by simp, (hw.mp hwf).1, (hw.mp hwf).2, ?_, hwf⟩
          simp [Carries, longFrame, hb]
    · refine ⟨f, ?_, ?_⟩
      · simp [mbusParse, code, rd, ACK_START, SHORT_START, LONG_START, h0, h1, h2]
      · simp [code, h0, h1, h2]

end Mbus
