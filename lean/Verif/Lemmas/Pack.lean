import Verif.Spec.Delivered
import Verif.Lemmas.Frame
/- Closed form of mbus_frame_pack and facts about wire encodings. -/
namespace Mbus
open Spec

theorem puts_eq (buf : List Byte) (o : Nat) (vs : List Byte) (h : o + vs.length ≤ buf.length) :
    puts (buf, o) vs = .ok (buf.take o ++ vs ++ buf.drop (o + vs.length), o + vs.length) := by
  induction vs generalizing buf o with
  | nil => simp [puts]
  | cons v vs ih =>
    simp only [List.length_cons] at h
    rw [puts, put, wr_ok (by dsimp only; omega)]
    simp only [ok_bind]
    rw [ih (buf.set o v) (o + 1) (by simp; omega)]
    have e1 : (buf.set o v).take (o + 1) = buf.take o ++ [v] := by
      rw [List.take_add_one, List.take_set_of_le (by omega), List.getElem?_set_self (by omega)]
      rfl
    have e2 : (buf.set o v).drop (o + 1 + vs.length) = buf.drop (o + (vs.length + 1)) := by
      rw [List.drop_set_of_lt (by omega)]
      congr 1; omega
    rw [e1, e2]
    simp [Nat.add_assoc, Nat.add_comm 1]

theorem puts_append (s : List Byte × Nat) (a b : List Byte) :
    puts s (a ++ b) = (puts s a) >>= (fun s => puts s b) := by
  induction a generalizing s with
  | nil => simp [puts]
  | cons x xs ih =>
    simp only [List.cons_append, puts]
    cases put s x <;> simp [ih]

theorem pack_loop (b : Buf 252) (n i : Nat) (s : List Byte × Nat) (h : i + n ≤ 252) :
    forN n i s (fun i s => do let x ← b.rd i; put s x) = puts s ((b.bytes.drop i).take n) := by
  induction n generalizing i s with
  | zero => simp [forN, puts]
  | succ n ih =>
    have hi : i < b.bytes.length := by simp; omega
    rw [forN, Buf.rd_ok b (by omega), List.drop_eq_getElem_cons hi, List.take_succ_cons, puts]
    simp only [ok_bind]
    cases hp : put s b.bytes[i] with
    | error e => rfl
    | ok s' => simp only [ok_bind]; exact ih (i + 1) s' (by omega)

/-- Number of bytes a frame of this type occupies on the wire. -/
def packLen (f : Frame) : Nat :=
  if f.type = 1 then 1 else if f.type = 2 then 5 else if f.type = 3 then 9 else f.dataSize + 9

/-- The frame with recomputed length and checksum fields. -/
def fixed (f : Frame) : Frame :=
  let f' := { f with length1 := calcLength f, length2 := calcLength f }
  { f' with checksum := specChecksum f }

/-- The bytes `mbus_frame_pack` writes. -/
def packBytes (f : Frame) : List Byte :=
  let g := fixed f
  if f.type = 1 then [g.start1]
  else if f.type = 2 then [g.start1, g.control, g.address, g.checksum, g.stop]
  else if f.type = 3 then
    [g.start1, g.length1, g.length2, g.start2, g.control, g.address, g.ci, g.checksum, g.stop]
  else [g.start1, g.length1, g.length2, g.start2, g.control, g.address, g.ci] ++
    g.data.bytes.take g.dataSize ++ [g.checksum, g.stop]

theorem packBytes_length (f : Frame) (h : f.type = 4 → f.dataSize ≤ 252)
    (ht : f.type = 1 ∨ f.type = 2 ∨ f.type = 3 ∨ f.type = 4) : (packBytes f).length = packLen f := by
  unfold packBytes packLen
  rcases ht with h1 | h1 | h1 | h1 <;> simp [h1, fixed]
  have := h h1; omega

theorem framePack_eq (f : Frame) (buf : List Byte) (size : Nat) (hs : size ≤ buf.length)
    (h : f.type = 4 → f.dataSize ≤ 252) (ht : f.type = 1 ∨ f.type = 2 ∨ f.type = 3 ∨ f.type = 4) :
    framePack f buf size =
      if size < packLen f then .ok (-4, fixed f, buf)
      else .ok ((packLen f : Int), fixed f, packBytes f ++ buf.drop (packLen f)) := by
  have hck : calcChecksum { f with length1 := calcLength f, length2 := calcLength f } = .ok (specChecksum f) :=
    calcChecksum_eq _ h
  have hlen := packBytes_length f h ht
  unfold framePack frameCalcLength frameCalcChecksum
  simp only [hck, show TYPE_ACK = 1 from rfl, show TYPE_SHORT = 2 from rfl, show TYPE_CONTROL = 3 from rfl,
    show TYPE_LONG = 4 from rfl, ht, if_true, ok_bind]
  rcases ht with h1 | h1 | h1 | h1
  · have hb : packBytes f = [(fixed f).start1] := by simp [packBytes, h1]
    by_cases hz : size < 1
    · simp [h1, packLen, hz, fixed]
    · have := puts_eq buf 0 [(fixed f).start1] (by simp; omega)
      simp [fixed] at this
      simp [h1, packLen, hz, fixed, this, hb]
  · have hb : packBytes f = [(fixed f).start1, (fixed f).control, (fixed f).address, (fixed f).checksum, (fixed f).stop] := by
      simp [packBytes, h1]
    by_cases hz : size < 5
    · simp [h1, packLen, hz, fixed]
    · have := puts_eq buf 0 (packBytes f) (by rw [hlen]; simp [packLen, h1]; omega)
      simp [fixed, hb] at this
      simp [h1, packLen, hz, fixed, this, hb]
  · have hb : packBytes f = [(fixed f).start1, (fixed f).length1, (fixed f).length2, (fixed f).start2, (fixed f).control,
        (fixed f).address, (fixed f).ci, (fixed f).checksum, (fixed f).stop] := by
      simp [packBytes, h1]
    by_cases hz : size < 9
    · simp [h1, packLen, hz, fixed]
    · have := puts_eq buf 0 (packBytes f) (by rw [hlen]; simp [packLen, h1]; omega)
      simp [fixed, hb] at this
      simp [h1, packLen, hz, fixed, this, hb]
  · by_cases hz : size < f.dataSize + 9
    · simp [h1, packLen, hz, fixed]
    · have hb : packBytes f = [(fixed f).start1, (fixed f).length1, (fixed f).length2, (fixed f).start2,
          (fixed f).control, (fixed f).address, (fixed f).ci] ++
          (f.data.bytes.take f.dataSize ++ [(fixed f).checksum, (fixed f).stop]) := by
        simp [packBytes, h1, fixed]
      have hw : puts (buf, 0) (packBytes f) = .ok (packBytes f ++ buf.drop (packLen f), packLen f) := by
        rw [puts_eq buf 0 (packBytes f) (by rw [hlen]; simp [packLen, h1]; omega)]
        simp [hlen]
      generalize hR : packBytes f ++ buf.drop (packLen f) = R at *
      rw [hb, puts_append] at hw
      simp only [h1, show ¬ ((4 : Int) = 1) by decide, show ¬ ((4 : Int) = 2) by decide,
        show ¬ ((4 : Int) = 3) by decide, if_false, if_true, show ¬ ((0 : Int) = -1) by decide, hz,
        pack_loop f.data f.dataSize 0 _ (by have := h h1; omega), List.drop_zero]
      simp only [puts_append] at hw
      simp only [fixed] at hw ⊢
      cases hp : puts (buf, 0) [f.start1, calcLength f, calcLength f, f.start2, f.control, f.address, f.ci] with
      | error e => rw [hp] at hw; simp at hw
      | ok s1 =>
        rw [hp] at hw
        simp only [ok_bind] at hw ⊢
        cases hp2 : puts s1 (f.data.bytes.take f.dataSize) with
        | error e => rw [hp2] at hw; simp at hw
        | ok s2 =>
          rw [hp2] at hw
          simp only [ok_bind] at hw ⊢
          have hpl : packLen f = f.dataSize + 9 := by simp [packLen, h1]
          rw [hw]
          simp [hpl, hz, h1]

theorem framePack_unknown (f : Frame) (buf : List Byte) (size : Nat)
    (ht : ¬ (f.type = 1 ∨ f.type = 2 ∨ f.type = 3 ∨ f.type = 4)) :
    framePack f buf size = .ok (-3, { f with length1 := calcLength f, length2 := calcLength f }, buf) := by
  unfold framePack frameCalcLength frameCalcChecksum
  simp [ht, show TYPE_ACK = 1 from rfl, show TYPE_SHORT = 2 from rfl, show TYPE_CONTROL = 3 from rfl,
    show TYPE_LONG = 4 from rfl]

end Mbus

namespace Mbus
open Spec

theorem wire_length_data (c a ci : Byte) (p : List Byte) : (Telegram.data c a ci p).wire.length = p.length + 9 := by
  simp [Telegram.wire]

theorem wire_head_ne (t : Telegram) (h : t ≠ .ack) : t.wire.head? ≠ some 0xE5 := by
  cases t <;> simp [Telegram.wire] at *

theorem code_wire (t : Telegram) (h : t.Legal) : code t.wire = 0 := by
  cases t with
  | ack => simp [code, Telegram.wire]
  | short c a =>
    have hc : c ∈ shortCodes := h
    simp [code, Telegram.wire, hc]
  | data c a ci p =>
    have hp : p.length ≤ 252 := h.2
    have hl : (UInt8.ofNat (p.length + 3)).toNat = p.length + 3 := by
      simp; omega
    unfold code Telegram.wire
    simp only [List.cons_append, List.nil_append]
    rw [if_neg (by decide), if_neg (by decide), if_pos trivial, if_neg (by rw [hl]; simp),
      if_neg (by rw [hl]; simp; omega), if_neg (by rw [hl]; simp; omega)]
    rw [hl]
    simp only [List.getD_cons_succ, List.getD_cons_zero, List.drop_succ_cons, List.drop_zero, Nat.add_sub_cancel]
    rw [List.take_left' rfl, if_pos]
    exact ⟨h, rfl⟩

/-- Packing a frame that carries a legal telegram (with its fixed bytes in place) yields the telegram's wire form. -/
theorem packBytes_wire (f : Frame) (t : Telegram) (hl : t.Legal) (hc : Carries f t)
    (hs : (t ≠ .ack → f.stop = 0x16) ∧ f.start1 = t.wire.headD 0 ∧ (f.type = 3 ∨ f.type = 4 → f.start2 = 0x68)) :
    packBytes f = t.wire ∧ packLen f = t.wire.length ∧ (f.type = 4 → f.dataSize ≤ 252) ∧
    (f.type = 1 ∨ f.type = 2 ∨ f.type = 3 ∨ f.type = 4) := by
  cases t with
  | ack =>
    have h1 : f.type = 1 := hc
    simp [packBytes, packLen, h1, Telegram.wire, fixed, hs.2.1]
  | short c a =>
    obtain ⟨h1, rfl, rfl⟩ := hc
    simp [Telegram.wire] at hs
    simp [packBytes, packLen, h1, Telegram.wire, fixed, hs, specChecksum]
  | data c a ci p =>
    obtain ⟨h1, rfl, rfl, rfl, h5, h6⟩ := hc
    have hp : p.length ≤ 252 := hl.2
    simp [Telegram.wire] at hs
    rw [h5] at h6
    by_cases hn : p = []
    · simp [hn] at h1
      simp [h1] at hs
      simp [packBytes, packLen, h1, Telegram.wire, fixed, hs, specChecksum, hn, calcLength, TYPE_CONTROL]
    · simp [hn] at h1
      simp [h1] at hs
      simp [packBytes, packLen, h1, Telegram.wire, fixed, hs, specChecksum, calcLength, TYPE_CONTROL, TYPE_LONG,
        h5, h6, hp]

theorem byteSum_set (l : List Byte) (i : Nat) (v : Byte) (h : i < l.length) :
    byteSum (l.set i v) + l[i] = byteSum l + v := by
  induction l generalizing i with
  | nil => simp at h
  | cons x xs ih =>
    cases i with
    | zero => simp [byteSum]; grind
    | succ i =>
      simp at h
      have := ih i h
      simp [byteSum]
      grind

theorem wire_inj (t u : Telegram) (h : t.wire = u.wire) : t = u := by
  have hlen := congrArg List.length h
  cases t <;> cases u <;> simp [Telegram.wire] at h hlen <;> try trivial
  · simp [h.1, h.2.1]
  · obtain ⟨-, h2, h3, h4, h5⟩ := h
    obtain ⟨h6, h7⟩ := List.append_inj h5 hlen
    simp [h2, h3, h4, h6]

theorem ok_code {bs : List Byte} {f f' g : Frame} {r : Int}
    (h : mbusParse f bs bs.length = .ok (code bs, f')) (h' : mbusParse f bs bs.length = .ok (r, g)) :
    code bs = r ∧ f' = g := by
  rw [h] at h'
  simpa using h'

theorem code_pos_cases (bs : List Byte) (h : 0 < code bs) :
    (bs.head? = some 0x10 ∧ bs.length < 5 ∧ code bs = 5 - bs.length) ∨
    (bs.head? = some 0x68 ∧ bs.length < 3 ∧ code bs = 3 - bs.length) ∨
    (∃ l q, bs = 0x68 :: l :: l :: q ∧ 3 ≤ l.toNat ∧ bs.length < 6 + l.toNat ∧ code bs = 6 + l.toNat - bs.length) := by
  unfold code at h ⊢
  split at h
  · omega
  · rename_i d0 r
    simp only at h ⊢
    by_cases h0 : d0 = 0xE5
    · simp [h0] at h
    by_cases h1 : d0 = 0x10
    · left
      rw [if_neg h0, if_pos h1] at h
      rw [if_neg h0, if_pos h1]
      split at h
      · split at h <;> omega
      · split at h
        · simp [h1]
          rename_i hlt
          refine ⟨by omega, ?_⟩
          split <;> simp_all <;> omega
        · omega
    by_cases h2 : d0 = 0x68
    · right
      rw [if_neg h0, if_neg h1, if_pos h2] at h
      rw [if_neg h0, if_neg h1, if_pos h2]
      split at h
      · left; simp [h2]
      · left; simp [h2]
      · right
        rename_i l1 l2 q
        split at h
        · omega
        rename_i g1
        simp at g1
        obtain ⟨g1, rfl⟩ := g1
        split at h
        · rename_i g2
          refine ⟨l1, q, by rw [h2], g1, by simp; omega, ?_⟩
          simp [g2]
          omega
        split at h
        · omega
        split at h <;> omega
    · simp [h0, h1, h2] at h

theorem wire_shape (t : Telegram) (ha : t ≠ .ack) (hl : t.Legal) :
    (t.wire.head? = some 0x10 ∧ t.wire.length = 5) ∨
    (∃ l q, t.wire = 0x68 :: l :: l :: q ∧ 3 ≤ l.toNat ∧ t.wire.length = 6 + l.toNat) := by
  cases t with
  | ack => exact absurd rfl ha
  | short c a => left; simp [Telegram.wire]
  | data c a ci p =>
    right
    have hp : p.length ≤ 252 := hl.2
    refine ⟨UInt8.ofNat (p.length + 3), 0x68 :: c :: a :: ci :: (p ++ [byteSum (c :: a :: ci :: p), 0x16]),
      by simp [Telegram.wire], ?_, ?_⟩ <;> simp [Telegram.wire] <;> omega

theorem code_zero_wire (bs : List Byte) (h : code bs = 0) :
    bs.head? = some 0xE5 ∨ ∃ t : Telegram, t ≠ .ack ∧ t.Legal ∧ bs = t.wire := by
  obtain ⟨f', _, h2⟩ := parse_code Frame.zero bs
  rcases h2 h with h | ⟨t, a, b, c, _⟩
  · exact .inl h.1
  · exact .inr ⟨t, a, b, c⟩

theorem code_pos_bound (bs : List Byte) (h : 0 < code bs) : bs.length + code bs ≤ 261 := by
  rcases code_pos_cases bs h with ⟨_, _, h⟩ | ⟨_, _, h⟩ | ⟨l, q, _, _, _, h⟩
  · omega
  · omega
  · have := l.toNat_lt; omega

theorem head_append {bs more : List Byte} {x : Byte} (h : bs.head? = some x) : (bs ++ more).head? = some x := by
  cases bs <;> simp_all

theorem code_more (bs more : List Byte) (h : 0 < code bs) (hm : (more.length : Int) < code bs) :
    code (bs ++ more) ≠ 0 := by
  intro hz
  have hc := code_pos_cases bs h
  rcases code_zero_wire _ hz with hh | ⟨t, ha, hl, ht⟩
  · rcases hc with ⟨hc, _⟩ | ⟨hc, _⟩ | ⟨l, q, rfl, _⟩
    · rw [head_append hc] at hh; simp at hh
    · rw [head_append hc] at hh; simp at hh
    · simp at hh
  · have hw := wire_shape t ha hl
    rw [← ht] at hw
    simp only [List.length_append] at hw
    rcases hc with ⟨hc, h2, h3⟩ | ⟨hc, h2, h3⟩ | ⟨l, q, rfl, h1, h2, h3⟩
    · rcases hw with ⟨_, hw⟩ | ⟨l, q, hw, _⟩
      · omega
      · have := head_append (more := more) hc; rw [hw] at this; simp at this
    · rcases hw with ⟨hw, _⟩ | ⟨l, q, hw, _, _⟩
      · rw [head_append hc] at hw; simp at hw
      · omega
    · rcases hw with ⟨hw, _⟩ | ⟨l', q', hw, _, hw2⟩
      · simp at hw
      · simp at hw
        obtain ⟨rfl, _⟩ := hw
        omega

theorem code_exact (bs more : List Byte) (h : 0 < code bs) (hk : 3 ≤ bs.length ∨ bs.head? = some 0x10)
    (hz : code (bs ++ more) = 0) : (more.length : Int) = code bs := by
  have hc := code_pos_cases bs h
  rcases code_zero_wire _ hz with hh | ⟨t, ha, hl, ht⟩
  · rcases hc with ⟨hc, _⟩ | ⟨hc, _⟩ | ⟨l, q, rfl, _⟩
    · rw [head_append hc] at hh; simp at hh
    · rw [head_append hc] at hh; simp at hh
    · simp at hh
  · have hw := wire_shape t ha hl
    rw [← ht] at hw
    simp only [List.length_append] at hw
    rcases hc with ⟨hc, h2, h3⟩ | ⟨hc, h2, h3⟩ | ⟨l, q, rfl, h1, h2, h3⟩
    · rcases hw with ⟨_, hw⟩ | ⟨l, q, hw, _⟩
      · omega
      · have := head_append (more := more) hc; rw [hw] at this; simp at this
    · rcases hk with hk | hk
      · omega
      · rw [hc] at hk; simp at hk
    · rcases hw with ⟨hw, _⟩ | ⟨l', q', hw, _, hw2⟩
      · simp at hw
      · simp at hw
        obtain ⟨rfl, _⟩ := hw
        omega

theorem code_prefix (t : Telegram) (hl : t.Legal) (ha : t ≠ .ack) (k : Nat) (h0 : 0 < k) (hk : k < t.wire.length) :
    0 < code (t.wire.take k) ∧ code (t.wire.take k) ≤ t.wire.length - k := by
  have hlen : (t.wire.take k).length = k := by simp; omega
  rcases wire_shape t ha hl with ⟨h1, h2⟩ | ⟨l, q, h1, h2, h3⟩
  · rw [h2] at hk
    have hc : code (t.wire.take k) = 5 - (k : Int) := by
      cases hw : t.wire with
      | nil => simp [hw] at h2
      | cons x xs =>
        rw [hw] at h1 hlen h2
        simp at h1 hlen h2
        subst h1
        cases k with
        | zero => omega
        | succ k =>
          simp [code]
          split
          · rename_i heq
            have := congrArg List.length heq
            simp at this; omega
          · rw [if_pos (by omega)]; omega
    rw [hc]; omega
  · rw [h3] at hk
    have h3' := h3
    rw [h1] at h3
    simp at h3
    match k, h0 with
    | 1, _ => rw [h3', h1]; simp [code]; omega
    | 2, _ => rw [h3', h1]; simp [code]; omega
    | k + 3, _ =>
      have hc : code (t.wire.take (k + 3)) = 6 + l.toNat - ((k : Int) + 3) := by
        rw [h1]
        have hq : (q.take k).length = k := by simp; omega
        simp only [List.take_succ_cons, code]
        rw [if_neg (by decide), if_neg (by decide), if_pos trivial, if_neg (by simp; omega), if_pos (by omega), hq]
        omega
      rw [hc, h1]
      simp only [List.length_cons]
      omega

theorem content_set (h c tail h' c' tail' : List Byte) (i : Nat) (v : Byte)
    (e : (h ++ c ++ tail).set i v = h' ++ c' ++ tail') (hh : h.length = h'.length) (hc : c.length = c'.length) :
    (i < h.length → c = c' ∧ tail = tail') ∧
    (h.length ≤ i → i < h.length + c.length → h = h' ∧ c.set (i - h.length) v = c' ∧ tail = tail') ∧
    (h.length + c.length ≤ i → h = h' ∧ c = c' ∧ tail.set (i - h.length - c.length) v = tail') := by
  refine ⟨?_, ?_, ?_⟩
  · intro hi
    rw [List.append_assoc, List.set_append_left _ _ hi, List.append_assoc] at e
    obtain ⟨_, e2⟩ := List.append_inj e (by simpa using hh)
    exact List.append_inj e2 hc
  · intro h1 h2
    rw [List.append_assoc, List.set_append_right _ _ h1, List.append_assoc] at e
    obtain ⟨e1, e2⟩ := List.append_inj e hh
    rw [List.set_append_left _ _ (by omega)] at e2
    obtain ⟨e2, e3⟩ := List.append_inj e2 (by simpa using hc)
    exact ⟨e1, e2, e3⟩
  · intro h1
    rw [List.append_assoc, List.set_append_right _ _ (by omega), List.append_assoc] at e
    obtain ⟨e1, e2⟩ := List.append_inj e hh
    rw [List.set_append_right _ _ (by omega)] at e2
    obtain ⟨e2, e3⟩ := List.append_inj e2 hc
    exact ⟨e1, e2, e3⟩

theorem set_self_of_eq {l : List Byte} {i : Nat} {v : Byte} (h : i < l.length) (e : l.set i v = l) : v = l[i] := by
  have := congrArg (fun x => x[i]?) e
  simpa [h] using this

theorem wire_one_byte (t u : Telegram) (hl : t.Legal) (hu : u.Legal) (ha : t ≠ .ack) (hb : u ≠ .ack) (i : Nat) (v : Byte)
    (hi : i < t.wire.length) (hv : v ≠ t.wire[i]) (e : t.wire.set i v = u.wire) : False := by
  -- if the two telegrams are equal the set changed nothing
  suffices htu : t = u by
    subst htu
    exact hv (set_self_of_eq hi e)
  have hlen := congrArg List.length e
  have hparts : ∀ t : Telegram, t ≠ .ack → ∃ h c, t.wire = h ++ c ++ [byteSum c, 0x16] ∧
      ((t.wire.length = 5 ∧ h = [0x10] ∧ ∃ x a, t = .short x a ∧ c = [x, a]) ∨
       (9 ≤ t.wire.length ∧ ∃ x a ci p, t = .data x a ci p ∧ c = x :: a :: ci :: p ∧
          h = [0x68, UInt8.ofNat (p.length + 3), UInt8.ofNat (p.length + 3), 0x68])) := by
    intro t ha
    cases t with
    | ack => exact absurd rfl ha
    | short x a => exact ⟨[0x10], [x, a], by simp [Telegram.wire, byteSum], .inl ⟨rfl, rfl, x, a, rfl, rfl⟩⟩
    | data x a ci p =>
      exact ⟨_, x :: a :: ci :: p, by simp [Telegram.wire], .inr ⟨by simp [Telegram.wire], x, a, ci, p, rfl, rfl, rfl⟩⟩
  obtain ⟨h, c, ht, hcase⟩ := hparts t ha
  obtain ⟨h', c', hu', hcase'⟩ := hparts u hb
  simp only [List.length_set] at hlen
  have key : h.length = h'.length ∧ c.length = c'.length ∧ (c = c' → t = u) := by
    rcases hcase with ⟨l5, rfl, x, a, rfl, rfl⟩ | ⟨l9, x, a, ci, p, rfl, rfl, rfl⟩ <;>
    rcases hcase' with ⟨l5', rfl, x', a', rfl, rfl⟩ | ⟨l9', x', a', ci', p', rfl, rfl, rfl⟩
    · simp
    · omega
    · omega
    · simp [wire_length_data] at hlen
      simp [hlen]
  obtain ⟨k1, k2, k3⟩ := key
  apply k3
  rw [ht] at e hi
  rw [hu'] at e
  obtain ⟨p1, p2, p3⟩ := content_set h c _ h' c' _ i v e k1 k2
  by_cases g1 : i < h.length
  · exact (p1 g1).1
  by_cases g2 : i < h.length + c.length
  · obtain ⟨_, q2, q3⟩ := p2 (by omega) g2
    have hs := byteSum_set c (i - h.length) v (by omega)
    rw [q2] at hs
    have q4 : byteSum c = byteSum c' := by simpa using q3
    rw [q4] at hs
    have : v = c[i - h.length] := by grind
    rw [← q2, this]; simp
  · exact (p3 (by omega)).2.1

end Mbus
