import Verif.Props.Tools
/-
Property theorem C90 (the tools that switch the baud rate and reset the application).
-/
namespace Mbus
open Spec

/-! ### C90 -/

/-- C90 for `mbus-serial-switch-baudrate`, provided that the uninitialised frame object does not happen to look like an acknowledge
and that its uninitialised link is not followed: nothing is sent and the exit status is 1 for an illegal address or baud rate;
otherwise exactly one command, to the given address with the CI field of the given baud rate, is sent, and success is printed iff an
acknowledge was received. -/
theorem C90_baud_partial {σ : Type} (o : Ops σ) (hh : Honest o) (junk : Frame) (hj : junk.type ≠ 1) (s : σ) (a baud : Int) (e : Exit (σ × List Act))
    (h : switchBaudTool junk false o.logged (s, []) a baud = .ok e) :
    ((¬ (0 ≤ a ∧ a ≤ 255) ∨ ∀ ci, (baud, ci) ∉ baudTable) ∧ e.code = 1 ∧ e.out = [] ∧ e.state = (s, [])) ∨
    ((0 ≤ a ∧ a ≤ 255) ∧ ∃ ci, (baud, ci) ∈ baudTable ∧ Commanded (.baudSwitched baud) (UInt8.ofNat a.toNat) ci [] e.code e.out e.state.2) := by
  unfold switchBaudTool at h
  rw [bind_eq_ok] at h
  obtain ⟨⟨r, s1, log1⟩, h1, h⟩ := h
  rcases baud_log o s [] a baud r _ h1 with ⟨hr, rfl, hs⟩ | ⟨ha, ci, hci, f, c, hf, hl, hr⟩
  · simp only at h
    rw [if_pos trivial] at h
    cases h
    exact .inl ⟨hr, rfl, rfl, hs⟩
  · right
    refine ⟨ha, ci, hci, ?_⟩
    simp only [List.nil_append] at hl h
    subst hl
    rcases hr with ⟨rfl, rfl⟩ | ⟨hc, rfl⟩
    · rw [if_pos rfl] at h
      cases h
      exact .sendFailed f hf
    · rw [if_neg (by decide), logged_recv_eq] at h
      cases hq : o.recv s1 junk with
      | error e => rw [hq] at h; cases h
      | ok q =>
        obtain ⟨rc, g, s2⟩ := q
        rw [hq] at h
        simp only [ok_bind, printReply] at h
        have key : ∀ code out, (if rc = RECV_TIMEOUT then (1, []) else if g.type ≠ TYPE_ACK then (0, [.dump g]) else (0, [.baudSwitched baud]) : Int × List Line) = (code, out) →
            Commanded (.baudSwitched baud) (UInt8.ofNat a.toNat) ci [] code out ([.sent f c] ++ [.received rc g]) := fun code out hk =>
          .answered f c rc g code out hf hc (answered_of o hh s1 junk hj rc g s2 hq _ _ _ hk)
        by_cases ht : rc = RECV_TIMEOUT
        · rw [if_pos ht] at h
          cases h
          exact key _ _ (by rw [if_pos ht])
        · rw [if_neg ht] at h
          by_cases hg : g.type ≠ TYPE_ACK
          · rw [if_pos hg] at h
            cases h
            exact key _ _ (by rw [if_neg ht, if_pos hg])
          · rw [if_neg hg] at h
            cases h
            exact key _ _ (by rw [if_neg ht, if_neg hg])

/-- C90 for `mbus-tcp-application-reset`, with the same restriction: a meter is reached (selected, if the argument is a secondary
address), and unless the address or the subcode is illegal exactly one reset command with the given subcode is sent to it; success is
printed iff an acknowledge was received.  If the selection does not find exactly one meter, nothing else is sent. -/
theorem C90_reset_partial {σ : Type} (o : Ops σ) (hh : Honest o) (junk : Frame) (hj : junk.type ≠ 1) (s : σ) (addr : List Byte) (sub : Int) (e : Exit (σ × List Act))
    (h : resetTool junk false o.logged (s, []) addr sub = .ok e) :
    (∃ r, AddressMask addr ∧ r ≠ 1 ∧ Selection addr r e.state.2 ∧ e.code = 1 ∧ e.out = []) ∨
    ∃ dest l, Reached addr dest l ∧
      (((¬ (0 ≤ dest ∧ dest ≤ 255) ∨ 255 < sub) ∧ e.code = 1 ∧ e.out = [] ∧ e.state.2 = l) ∨
       ((0 ≤ dest ∧ dest ≤ 255) ∧ sub ≤ 255 ∧ ∃ l', e.state.2 = l ++ l' ∧
          Commanded (.reset sub) (UInt8.ofNat dest.toNat) 0x50 (resetPayload sub) e.code e.out l')) := by
  unfold resetTool at h
  rw [bind_eq_ok] at h
  obtain ⟨⟨t, s0, log0⟩, h0, h⟩ := h
  have hreach : (t = none ∧ ∃ r, AddressMask addr ∧ r ≠ 1 ∧ Selection addr r log0) ∨ ∃ dest, t = some dest ∧ Reached addr dest log0 := by
    rcases reach_log o s [] addr t _ h0 with ⟨hm, l, r, e3, hs, ha⟩ | ⟨hm, ha, hs⟩
    · simp only [List.nil_append] at e3
      subst e3
      by_cases hr1 : r = 1
      · subst hr1
        exact .inr ⟨0xFD, by simpa using ha, .secondary _ hm hs⟩
      · exact .inl ⟨by rw [ha, if_neg hr1], r, hm, hr1, hs⟩
    · cases hs
      exact .inr ⟨_, ha, .primary hm⟩
  rcases hreach with ⟨rfl, r, hm, hr1, hs⟩ | ⟨dest, rfl, hre⟩
  · simp only at h
    cases h
    exact .inl ⟨r, hm, hr1, hs, rfl, rfl⟩
  refine .inr ⟨dest, log0, hre, ?_⟩
  simp only at h
  rw [bind_eq_ok] at h
  obtain ⟨⟨r, s1, log1⟩, h1, h⟩ := h
  rcases reset_log o s0 log0 dest sub r _ h1 with ⟨hr, rfl, hs⟩ | ⟨ha, hsub, f, c, hf, hl, hr⟩
  · simp only at h
    rw [if_pos trivial] at h
    cases h
    cases hs
    exact .inl ⟨hr, rfl, rfl, rfl⟩
  · right
    refine ⟨ha, hsub, ?_⟩
    simp only at hl h
    subst hl
    rcases hr with ⟨rfl, rfl⟩ | ⟨hc, rfl⟩
    · rw [if_pos rfl] at h
      cases h
      exact ⟨_, rfl, .sendFailed f hf⟩
    · rw [if_neg (by decide), logged_recv_eq] at h
      cases hq : o.recv s1 junk with
      | error e => rw [hq] at h; cases h
      | ok q =>
        obtain ⟨rc, g, s2⟩ := q
        rw [hq] at h
        simp only [ok_bind, printReply] at h
        have key : ∀ code out, (if rc = RECV_TIMEOUT then (1, []) else if g.type ≠ TYPE_ACK then (0, [.dump g]) else (0, [.reset sub]) : Int × List Line) = (code, out) →
            Commanded (.reset sub) (UInt8.ofNat dest.toNat) 0x50 (resetPayload sub) code out ([.sent f c] ++ [.received rc g]) := fun code out hk =>
          .answered f c rc g code out hf hc (answered_of o hh s1 junk hj rc g s2 hq _ _ _ hk)
        by_cases ht : rc = RECV_TIMEOUT
        · rw [if_pos ht] at h
          cases h
          exact ⟨_, List.append_assoc _ _ _, key _ _ (by rw [if_pos ht])⟩
        · rw [if_neg ht] at h
          by_cases hg : g.type ≠ TYPE_ACK
          · rw [if_pos hg] at h
            cases h
            exact ⟨_, List.append_assoc _ _ _, key _ _ (by rw [if_neg ht, if_pos hg])⟩
          · rw [if_neg hg] at h
            cases h
            exact ⟨_, List.append_assoc _ _ _, key _ _ (by rw [if_neg ht, if_neg hg])⟩

theorem bus_sendBaud (k : Kind) (env : Env) (ho : IsOpen k env) (hw : Writable env) (purge : Int) (sent : List (List Byte)) (a : Byte) (baud : Int) (ci : Byte)
    (hb : (baud, ci) ∈ baudTable) (t : Spec.Telegram) (ht : t = .data 0x53 a ci []) :
    sendBaud ((busLink k env).ops purge) ⟨[], sent⟩ a.toNat baud = .ok (0, ⟨env.respond (sent ++ [t.wire]), sent ++ [t.wire]⟩) := by
  subst ht
  have hs := bus_send k env ho ⟨[], sent⟩ _ _ (show Spec.Telegram.Legal (.data 0x53 a ci []) from ⟨(by decide : (0x53 : Byte) ∈ dataCodes), by simp⟩) (packs_control 0x53 a ci)
  unfold sendBaud
  rw [if_neg (by rw [byte_primary]; decide), ofNat_byte, baudCode_some baud ci hb]
  show ((busLink k env).send ⟨[], sent⟩ { frameNew TYPE_CONTROL with control := 0x53, address := a, ci := ci } >>= _) = _
  rw [hs, hw, if_pos rfl, ok_bind]
  simp only
  rw [if_neg (by decide)]
  rfl

/-- C90 on the wire: whatever the uninitialised frame object contains, a meter that acknowledges (in chunks of any size) makes the tool
print success; exactly the command was transmitted. -/
theorem C90_baud_wire (k : Kind) (env : Env) (ho : IsOpen k env) (hw : Writable env) (purge : Int) (hp : purge ≠ PURGE_S2M) (junk : Frame) (wild : Bool)
    (sent : List (List Byte)) (a : Byte) (baud : Int) (ci : Byte) (hb : (baud, ci) ∈ baudTable) (t : Spec.Telegram) (ht : t = .data 0x53 a ci [])
    (cs : List (List Byte)) (hc : Chunks cs) (hack : cs.flatten = [0xE5]) (hr : env.respond (sent ++ [t.wire]) = evs cs) :
    switchBaudTool junk wild ((busLink k env).ops purge) ⟨[], sent⟩ a.toNat baud = .ok ⟨0, [.baudSwitched baud], ⟨[], sent ++ [t.wire]⟩⟩ := by
  unfold switchBaudTool
  rw [bus_sendBaud k env ho hw purge sent a baud ci hb t ht, ok_bind]
  simp only
  rw [if_neg (by decide), hr]
  obtain ⟨g, cs', h1, h2, h3, h4⟩ := recv_ack1 k env ho purge hp (sent ++ [t.wire]) cs hc [] hack junk
  show (recvFrame (busLink k env) purge ⟨evs cs, _⟩ junk >>= _) = _
  rw [h1, ok_bind]
  simp only
  rw [if_neg (by decide), if_neg (fun h => h h2), chunks_nil cs' h3 h4]
  rfl

theorem bus_sendReset (k : Kind) (env : Env) (ho : IsOpen k env) (hw : Writable env) (purge : Int) (sent : List (List Byte)) (a : Byte) (sub : Int)
    (hs : sub ≤ 255) (t : Spec.Telegram) (ht : t = .data 0x53 a 0x50 (resetPayload sub)) :
    sendAppReset ((busLink k env).ops purge) ⟨[], sent⟩ a.toNat sub = .ok (0, ⟨env.respond (sent ++ [t.wire]), sent ++ [t.wire]⟩) := by
  subst ht
  have finish : ∀ (f : Frame), Packs f (.data 0x53 a 0x50 (resetPayload sub)) →
      (((busLink k env).ops purge).send ⟨[], sent⟩ f >>= fun q => if q.1 = -1 then .ok (-1, q.2.2) else .ok (0, q.2.2)) =
        Except.ok (ε := Fault) (0, ⟨env.respond (sent ++ [(Spec.Telegram.data 0x53 a 0x50 (resetPayload sub)).wire]), sent ++ [(Spec.Telegram.data 0x53 a 0x50 (resetPayload sub)).wire]⟩) := by
    intro f hf
    have hs := bus_send k env ho ⟨[], sent⟩ _ _ (show Spec.Telegram.Legal (.data 0x53 a 0x50 (resetPayload sub)) from
      ⟨(by decide : (0x53 : Byte) ∈ dataCodes), by unfold resetPayload; split <;> simp⟩) hf
    show ((busLink k env).send ⟨[], sent⟩ f >>= _) = _
    rw [hs, hw, if_pos rfl, ok_bind]
    simp only
    rw [if_neg (by decide)]
    rfl
  unfold sendAppReset
  rw [if_neg (by rw [byte_primary]; decide), ofNat_byte, if_neg (by omega)]
  dsimp only
  by_cases h0 : sub ≥ 0
  · rw [if_pos h0]
    obtain ⟨d, hd, ht⟩ : ∃ d : Buf 252, (frameNew TYPE_LONG).data.wr 0 (UInt8.ofNat sub.toNat) = .ok d ∧ d.bytes.take 1 = [UInt8.ofNat sub.toNat] := by
      obtain ⟨a0, a1, a2, a3, a4, a5, a6, a7, t, ht, hd⟩ := split8 (frameNew TYPE_LONG).data
      rw [hd]
      exact ⟨⟨UInt8.ofNat sub.toNat :: a1 :: a2 :: a3 :: a4 :: a5 :: a6 :: a7 :: t, ht⟩, rfl, rfl⟩
    have hp := packs_long 0x53 a 0x50 d 1 (by decide)
    rw [ht] at hp
    rw [hd, ok_bind, ok_bind]
    exact finish _ (by unfold resetPayload; rw [if_pos h0]; exact hp)
  · rw [if_neg h0, ok_bind]
    have hp := packs_long 0x53 a 0x50 (frameNew TYPE_LONG).data 0 (by decide)
    exact finish _ (by unfold resetPayload; rw [if_neg h0]; exact hp)

/-- C90 on the wire for the reset of a meter named by its primary or secondary address. -/
theorem C90_reset_wire (k : Kind) (env : Env) (ho : IsOpen k env) (hw : Writable env) (purge : Int) (hp : purge ≠ PURGE_S2M) (junk : Frame) (wild : Bool)
    (before after : List (List Byte)) (addr : List Byte) (dest : Byte) (hreach : Reachable env addr before dest after) (sub : Int) (hs : sub ≤ 255)
    (t : Spec.Telegram) (ht : t = .data 0x53 dest 0x50 (resetPayload sub))
    (cs : List (List Byte)) (hc : Chunks cs) (hack : cs.flatten = [0xE5]) (hr : env.respond (after ++ [t.wire]) = evs cs) :
    resetTool junk wild ((busLink k env).ops purge) ⟨[], before⟩ addr sub = .ok ⟨0, [.reset sub], ⟨[], after ++ [t.wire]⟩⟩ := by
  unfold resetTool
  rw [reach_wire k env ho hw purge hp addr before dest after hreach, ok_bind]
  simp only
  rw [bus_sendReset k env ho hw purge after dest sub hs t ht, ok_bind]
  simp only
  rw [if_neg (by decide), hr]
  obtain ⟨g, cs', h1, h2, h3, h4⟩ := recv_ack1 k env ho purge hp (after ++ [t.wire]) cs hc [] hack junk
  show (recvFrame (busLink k env) purge ⟨evs cs, _⟩ junk >>= _) = _
  rw [h1, ok_bind]
  simp only
  rw [if_neg (by decide), if_neg (fun h => h h2), chunks_nil cs' h3 h4]
  rfl

/-- C90 is false: if the uninitialised frame object happens to look like an acknowledge, the tool reports success although nothing
but a noise byte came back. -/
theorem C90_junk_violation (k : Kind) (env : Env) (ho : IsOpen k env) (hw : Writable env) (sent : List (List Byte)) (a : Byte) (baud : Int)
    (ci : Byte) (hb : (baud, ci) ∈ baudTable) (t : Spec.Telegram) (ht : t = .data 0x53 a ci []) (n : Byte) (hn : n ≠ 0xE5 ∧ n ≠ 0x10 ∧ n ≠ 0x68)
    (hr : env.respond (sent ++ [t.wire]) = [.data [n]]) (junk : Frame) (hj : junk.type = 1) (wild : Bool) :
    switchBaudTool junk wild ((busLink k env).ops PURGE_M2S) ⟨[], sent⟩ a.toNat baud = .ok ⟨0, [.baudSwitched baud], ⟨[], sent ++ [t.wire]⟩⟩ := by
  unfold switchBaudTool
  rw [bus_sendBaud k env ho hw PURGE_M2S sent a baud ci hb t ht, ok_bind]
  simp only
  rw [if_neg (by decide), hr]
  have h1 : recvFrame (busLink k env) PURGE_M2S ⟨[.data [n]], sent ++ [t.wire]⟩ junk = .ok (RECV_INVALID, junk, ⟨[], sent ++ [t.wire]⟩) := by
    unfold recvFrame
    rw [bus_recv_noise k env ho _ n hn junk, ok_bind]
    have : frameDirection junk = MASK_DIR_S2M := by unfold frameDirection; rw [if_pos (show junk.type = TYPE_ACK from hj)]
    simp only [this]
    rfl
  show (recvFrame (busLink k env) PURGE_M2S ⟨[.data [n]], _⟩ junk >>= _) = _
  rw [h1, ok_bind]
  simp only
  rw [if_neg (by decide), if_neg (fun h => h hj)]

/-- C90 is false: any reply that is not an acknowledge makes the tool follow an uninitialised pointer. -/
theorem C90_pointer_violation (k : Kind) (env : Env) (ho : IsOpen k env) (hw : Writable env) (purge : Int) (hp : purge ≠ PURGE_S2M) (sent : List (List Byte))
    (a : Byte) (baud : Int) (ci : Byte) (hb : (baud, ci) ∈ baudTable) (t : Spec.Telegram) (ht : t = .data 0x53 a ci []) (u : Spec.Telegram) (hl : u.Legal)
    (hu : FromSlave u) (hne : u ≠ .ack) (cs : List (List Byte)) (hc : Chunks cs) (hf : cs.flatten = u.wire) (hr : env.respond (sent ++ [t.wire]) = evs cs) (junk : Frame) :
    switchBaudTool junk true ((busLink k env).ops purge) ⟨[], sent⟩ a.toNat baud = .error .useAfterFree := by
  unfold switchBaudTool
  rw [bus_sendBaud k env ho hw purge sent a baud ci hb t ht, ok_bind]
  simp only
  rw [if_neg (by decide), hr]
  obtain ⟨g, h1, h2⟩ := recv_telegram k env ho purge hp (sent ++ [t.wire]) cs hc u hl hu hf junk
  show (recvFrame (busLink k env) purge ⟨evs cs, _⟩ junk >>= _) = _
  rw [h1, ok_bind]
  simp only
  have : g.type ≠ TYPE_ACK := by
    cases u with
    | ack => exact absurd rfl hne
    | short => exact hu.elim
    | data c a ci p =>
      rw [h2.1]
      split <;> decide
  rw [if_neg (by decide), if_pos this]
  rfl

/-- a bus on which every transmission is answered with `bs` -/
def echoing (bs : List Byte) : Env := { respond := fun _ => [.data bs], junk := fun _ => 0, wret := fun _ n => n, tty := true }

/-- a meter that acknowledges everything: reset by secondary address -/
example (k : Kind) (junk : Frame) (wild : Bool) :
    resetTool junk wild ((busLink k (echoing [0xE5])).ops PURGE_M2S) ⟨[], []⟩ (cs! "1234567824400107") 16 = .ok ⟨0, [.reset 16],
      ⟨[], [[0x68, 0x0B, 0x0B, 0x68, 0x73, 0xFD, 0x52, 0x78, 0x56, 0x34, 0x12, 0x24, 0x40, 0x01, 0x07, 0x42, 0x16], [0x68, 4, 4, 0x68, 0x53, 0xFD, 0x50, 0x10, 0xB0, 0x16]]⟩⟩ :=
  C90_reset_wire k _ (by cases k <;> simp [IsOpen, echoing]) (fun _ _ => rfl) PURGE_M2S (by decide) junk wild []
    [[0x68, 0x0B, 0x0B, 0x68, 0x73, 0xFD, 0x52, 0x78, 0x56, 0x34, 0x12, 0x24, 0x40, 0x01, 0x07, 0x42, 0x16]] (cs! "1234567824400107") 0xFD
    (.secondary [[0xE5]] (by unfold AddressMask; decide +kernel) (by decide +kernel) (by simp [Chunks]) rfl rfl) 16 (by decide) _ rfl [[0xE5]] (by simp [Chunks]) rfl rfl

/-- both can happen: a meter with the status telegram 08 01 72 (no data), a noise byte -/
example (k : Kind) (junk : Frame) :
    switchBaudTool junk true ((busLink k (echoing (Spec.Telegram.data 0x08 1 0x72 []).wire)).ops PURGE_M2S) ⟨[], []⟩ 1 2400 = .error .useAfterFree :=
  C90_pointer_violation k _ (by cases k <;> simp [IsOpen, echoing]) (fun _ _ => rfl) PURGE_M2S (by decide) [] 1 2400 0xBB (by decide) _ rfl
    (.data 0x08 1 0x72 []) ⟨by decide, by decide⟩ (by unfold FromSlave; decide) (by simp) [(Spec.Telegram.data 0x08 1 0x72 []).wire] (by simp [Chunks, Spec.Telegram.wire]) (by simp) rfl junk
example (k : Kind) : ∃ junk b,
    switchBaudTool junk false ((busLink k (echoing [0x42])).ops PURGE_M2S) ⟨[], []⟩ 1 2400 = .ok ⟨0, [.baudSwitched 2400], b⟩ :=
  ⟨{ Frame.zero with type := 1 }, _, C90_junk_violation k _ (by cases k <;> simp [IsOpen, echoing]) (fun _ _ => rfl) [] 1 2400 0xBB (by decide) _ rfl 0x42 (by decide) rfl _ rfl false⟩

/-! Direct instances of the theorems above, for any bus. -/

example (k : Kind) (env : Env) (b : Bus) (e : Exit (Bus × List Act))
    (h : switchBaudTool Frame.zero false ((busLink k env).ops PURGE_M2S).logged (b, []) 1 2400 = .ok e) :=
  C90_baud_partial _ (bus_honest k env PURGE_M2S (by decide)) Frame.zero (by decide) b 1 2400 e h
example (k : Kind) (env : Env) (b : Bus) (e : Exit (Bus × List Act))
    (h : resetTool Frame.zero false ((busLink k env).ops PURGE_M2S).logged (b, []) (cs! "1234567824400107") 16 = .ok e) :=
  C90_reset_partial _ (bus_honest k env PURGE_M2S (by decide)) Frame.zero (by decide) b (cs! "1234567824400107") 16 e h
example (k : Kind) (junk : Frame) (wild : Bool) := C90_baud_wire k (echoing [0xE5]) (by cases k <;> simp [IsOpen, echoing]) (fun _ _ => rfl) PURGE_M2S (by decide)
  junk wild [] 1 2400 0xBB (by decide) _ rfl [[0xE5]] (by simp [Chunks]) rfl rfl

end Mbus
