import Verif.Model.Bus
import Verif.Lemmas.Address
namespace Mbus
open Spec

/-- packing `f` gives the wire form of `t` -/
def Packs (f : Frame) (t : Telegram) : Prop :=
  packBytes f = t.wire ∧ packLen f = t.wire.length ∧ (f.type = 4 → f.dataSize ≤ 252) ∧
    (f.type = 1 ∨ f.type = 2 ∨ f.type = 3 ∨ f.type = 4)

theorem wire_length_le (t : Telegram) (h : t.Legal) : t.wire.length ≤ 261 := by
  cases t with
  | ack => simp [Telegram.wire]
  | short c a => simp [Telegram.wire]
  | data c a ci p => rw [wire_length_data]; have := h.2; omega

theorem sendFrame_packs (junk : Nat → Byte) (wret : Nat → Int) (f : Frame) (t : Telegram) (hl : t.Legal) (h : Packs f t) :
    sendFrame true junk wret f =
      .ok (if wret t.wire.length = t.wire.length then 0 else -1, fixed f, some t.wire) := by
  obtain ⟨h1, h2, h3, h4⟩ := h
  have hle := wire_length_le t hl
  unfold sendFrame
  rw [if_neg (by decide), framePack_eq f _ PACKET_BUFF_SIZE (by simp) h3 h4, if_neg (by rw [h2]; unfold PACKET_BUFF_SIZE; omega)]
  rw [h1, h2]
  have hlen : 0 < t.wire.length := by cases t <;> simp [Telegram.wire]
  simp only [ok_bind, Int.toNat_natCast]
  rw [if_neg (by omega), if_neg (by omega), List.take_left' rfl]
  split <;> rfl

/-- the bus after transmitting `bytes` -/
def busAfter (env : Env) (b : Bus) (bytes : List Byte) : Bus :=
  { script := b.script ++ env.respond (b.sent ++ [bytes]), sent := b.sent ++ [bytes] }

theorem bus_send (k : Kind) (env : Env) (ho : IsOpen k env) (b : Bus) (f : Frame) (t : Telegram) (hl : t.Legal) (h : Packs f t) :
    (busLink k env).send b f =
      .ok (if env.wret b.sent t.wire.length = t.wire.length then 0 else -1, fixed f, busAfter env b t.wire) := by
  cases k with
  | tcp =>
    show (sendFrame true env.junk (env.wret b.sent) f >>= _) = _
    rw [sendFrame_packs env.junk (env.wret b.sent) f t hl h]
    rfl
  | serial =>
    rcases ho with ho | ho
    · cases ho
    · show (sendFrame env.tty env.junk (env.wret b.sent) f >>= _) = _
      rw [ho, sendFrame_packs env.junk (env.wret b.sent) f t hl h]
      rfl

theorem bus_send_closed (env : Env) (hc : env.tty = false) (b : Bus) (f : Frame) :
    (busLink .serial env).send b f = .ok (-1, f, b) := by
  show (sendFrame env.tty env.junk (env.wret b.sent) f >>= _) = _
  rw [hc]; rfl

theorem isPrimary_iff (a : Int) : isPrimaryAddress a = true ↔ 0 ≤ a ∧ a ≤ 255 := by
  unfold isPrimaryAddress
  rw [Bool.and_eq_true, decide_eq_true_iff, decide_eq_true_iff]

theorem isPrimary_false (a : Int) (h : ¬ (0 ≤ a ∧ a ≤ 255)) : isPrimaryAddress a = false := by
  rw [← isPrimary_iff] at h; simpa using h

/-- request frames of type SHORT -/
theorem packs_short (c a : Byte) : Packs { frameNew TYPE_SHORT with control := c, address := a } (.short c a) := by
  refine ⟨?_, rfl, fun h => ?_, .inr (.inl rfl)⟩
  · simp [packBytes, frameNew, fixed, specChecksum, Telegram.wire, TYPE_SHORT, TYPE_ACK, SHORT_START, FRAME_STOP]
  · simp [frameNew, TYPE_SHORT, TYPE_ACK] at h

theorem packs_control (c a ci : Byte) : Packs { frameNew TYPE_CONTROL with control := c, address := a, ci := ci } (.data c a ci []) := by
  refine ⟨?_, rfl, fun h => ?_, .inr (.inr (.inl rfl))⟩
  · simp [packBytes, frameNew, fixed, specChecksum, Telegram.wire, TYPE_SHORT, TYPE_ACK, TYPE_CONTROL, CONTROL_START, FRAME_STOP,
      calcLength]
  · simp [frameNew, TYPE_SHORT, TYPE_ACK, TYPE_CONTROL] at h

/-- data frames of type LONG, the empty payload included -/
theorem packs_long (c a ci : Byte) (d : Buf 252) (n : Nat) (hn : n ≤ 252) :
    Packs { frameNew TYPE_LONG with control := c, address := a, ci := ci, data := d, dataSize := n } (.data c a ci (d.bytes.take n)) := by
  have hlen : (d.bytes.take n).length = n := by simp; omega
  refine ⟨?_, ?_, fun _ => hn, .inr (.inr (.inr rfl))⟩
  · simp only [Telegram.wire, hlen]
    simp [packBytes, frameNew, fixed, specChecksum, TYPE_SHORT, TYPE_ACK, TYPE_CONTROL, TYPE_LONG, LONG_START, FRAME_STOP,
      calcLength]
  · rw [wire_length_data, hlen]
    simp [packLen, frameNew, TYPE_SHORT, TYPE_ACK, TYPE_CONTROL, TYPE_LONG]

theorem purgeLoop_sent (k : Kind) (env : Env) (purge : Int) (n : Nat) : ∀ (b : Bus) (f : Frame) (r : Int), evWeight b.script ≤ n →
    ∃ r' b', purgeLoop (busLink k env) purge b f r = .ok (r', b') ∧ b'.sent = b.sent := by
  have hrecv : ∀ (b : Bus) (f : Frame), ∃ c f' b', recvFrame (busLink k env) purge b f = .ok (c, f', b') ∧ b'.sent = b.sent := by
    have one : ∀ (b : Bus) (f : Frame), ∃ c f' b', (busLink k env).recv b f = .ok (c, f', b') ∧ b'.sent = b.sent := by
      intro b f
      obtain ⟨out, h1, _⟩ := kindRecv_weight k env.tty b.script f
      refine ⟨out.code, out.frame, { b with script := out.rest }, ?_, rfl⟩
      show (kindRecv k env.tty b.script f >>= _) = _
      rw [h1]; rfl
    intro b f
    obtain ⟨c, f', b', h1, h2⟩ := one b f
    obtain ⟨c2, f2, b2, h3, h4⟩ := one b' f'
    unfold recvFrame
    rw [h1]
    simp only [ok_bind]
    split
    · split
      · exact ⟨_, _, _, h3, by rw [h4, h2]⟩
      · exact ⟨_, _, _, rfl, h2⟩
    · split
      · split
        · exact ⟨_, _, _, h3, by rw [h4, h2]⟩
        · exact ⟨_, _, _, rfl, h2⟩
      · exact ⟨_, _, _, rfl, h2⟩
  induction n with
  | zero =>
    intro b f r hw
    obtain ⟨c, f', b', h1, h2⟩ := hrecv b f
    rw [purgeLoop]
    split
    · next h => rw [h1] at h; simp at h
    · next h =>
      rw [h1] at h
      simp only [Except.ok.injEq, Prod.mk.injEq] at h
      obtain ⟨rfl, rfl, rfl⟩ := h
      split
      · exact ⟨_, _, rfl, h2⟩
      · next hc =>
        exfalso
        have := recvFrame_lt _ _ _ _ _ _ _ h1 (by
          by_cases h0 : c = RECV_OK
          · exact .inl h0
          · exact .inr (Decidable.byContradiction fun h1 => hc ⟨h0, h1⟩))
        simp only [busLink] at this
        omega
  | succ n ih =>
    intro b f r hw
    obtain ⟨c, f', b', h1, h2⟩ := hrecv b f
    rw [purgeLoop]
    split
    · next h => rw [h1] at h; simp at h
    · next h =>
      rw [h1] at h
      simp only [Except.ok.injEq, Prod.mk.injEq] at h
      obtain ⟨rfl, rfl, rfl⟩ := h
      split
      · exact ⟨_, _, rfl, h2⟩
      · next hc =>
        have := recvFrame_lt _ _ _ _ _ _ _ h1 (by
          by_cases h0 : c = RECV_OK
          · exact .inl h0
          · exact .inr (Decidable.byContradiction fun h1 => hc ⟨h0, h1⟩))
        simp only [busLink] at this
        obtain ⟨r', b'', h3, h4⟩ := ih b' f' 1 (by omega)
        exact ⟨r', b'', h3, by rw [h4, h2]⟩

theorem purge_sent (k : Kind) (env : Env) (purge : Int) (b : Bus) :
    ∃ r' b', purgeFrames (busLink k env) purge b = .ok (r', b') ∧ b'.sent = b.sent :=
  purgeLoop_sent k env purge _ b _ _ (Nat.le_refl _)

end Mbus
