import Verif.Props.Diag
import Verif.Model.DiagLink
import Verif.Props.Command
set_option linter.unusedSimpArgs false
/-
C122: the diagnostics on the two transports, what silence means, and where the diagnostics mislead.
-/
namespace Mbus
open Spec

theorem talk_sim (k : Kind) (env : Env) : LinkSim (talkLink k env) (busLink k env) Prod.fst := by
  refine ⟨fun s f => ?_, fun s f => ?_⟩
  · show (sendFrame (match k with | .tcp => true | .serial => env.tty) env.junk (env.wret s.1.sent) f >>= _) =
      Except.map _ (kindSendE k env.tty env.junk (env.wret s.1.sent) f >>= _)
    have e : sendFrame (match k with | .tcp => true | .serial => env.tty) env.junk (env.wret s.1.sent) f =
      (kindSendE k env.tty env.junk (env.wret s.1.sent) f).map (fun q => (q.1, q.2.1, q.2.2.1)) := (kindSendE_mute _ _ _ _ _).symm
    rw [e, map_bind, bind_map]
    apply bind_congr'
    rintro ⟨r, f, w, m⟩
    cases w <;> rfl
  · show (kindRecv k env.tty s.1.script f >>= _) = Except.map _ (kindRecvE k env.tty s.1.script f >>= _)
    rw [← kindRecvE_mute]
    unfold silent
    rw [map_bind, bind_map]
    apply bind_congr'
    rintro ⟨out, m⟩
    rfl

theorem talk_recalls (k : Kind) (env : Env) (purge : Int) : Recalls (talkDesk k env purge) := fun _ _ => rfl

theorem talk_ops (k : Kind) (env : Env) (purge : Int) : SimulatesAll (talkDesk k env purge).toOps ((busLink k env).ops purge) Prod.fst :=
  ops_sim (talk_sim k env) purge

theorem talk_blind (k : Kind) (env : Env) (purge : Int) : Blind (talkDesk k env purge) Prod.fst := fun _ _ => rfl

theorem logged_sim {σ τ : Type} {d : Desk σ} {o : Ops τ} {φ : σ → τ} (h : SimulatesAll d.toOps o φ) :
    SimulatesAll d.logged.toOps o fun s => φ s.1 := by
  refine ⟨⟨fun s f => ?_, fun s f => ?_, fun s => ?_⟩, fun s m => h.progress s.1 m, fun s a f => h.found s.1 a f⟩
  · show o.send (φ s.1) f = Except.map _ (d.send s.1 f >>= _)
    rw [h.send, bind_map]
    cases d.send s.1 f <;> rfl
  · show o.recv (φ s.1) f = Except.map _ (d.recv s.1 f >>= _)
    rw [h.recv, bind_map]
    cases d.recv s.1 f <;> rfl
  · show o.purge (φ s.1) = Except.map _ (d.purge s.1 >>= _)
    rw [h.purge, bind_map]
    cases d.purge s.1 <;> rfl

/-- C122: the diagnostics do not change what the functions do.  On both transports each function returns what the function of Model/Session
returns, and leaves the same bus: whatever text is in `error_str`.  (`log` is the observer's list of calls.) -/
theorem C122_same (k : Kind) (env : Env) (st : Settings) (b : Bus) (t : List Byte) (log : List Act) :
    let d := (talkDesk k env st.purgeFirst).logged
    let o := (busLink k env).ops st.purgeFirst
    let s := ((b, t), log)
    (∀ a, sendRequest o b a = (sendRequestD d s a).map fun q => (q.1, q.2.1.1.1)) ∧
    (∀ a p, sendPing o b a p = (sendPingD d s a p).map fun q => (q.1, q.2.1.1.1)) ∧
    (∀ a n, sendBaud o b a n = (sendBaudD d s a n).map fun q => (q.1, q.2.1.1.1)) ∧
    (∀ a n, sendAppReset o b a n = (sendAppResetD d s a n).map fun q => (q.1, q.2.1.1.1)) ∧
    (∀ a x n, sendUserData o b a x n = (sendUserDataD d s a x n).map fun q => (q.1, q.2.1.1.1)) ∧
    (∀ a n, setPrimaryAddress o b a n = (setPrimaryAddressD d s a n).map fun q => (q.1, q.2.1.1.1)) ∧
    (∀ m, sendSelect o b m = (sendSelectD d s m).map fun q => (q.1, q.2.1.1.1)) ∧
    (∀ m, selectSecondary o b m = (selectSecondaryD d s m).map fun q => (q.1, q.2.1.1.1)) ∧
    (∀ m, probeSecondary o st b m = (probeSecondaryD d st s m).map fun q => (q.1, q.2.1, q.2.2.1.1.1)) ∧
    (∀ p m, scanRange o st b p m = (scanRangeD d st s p m).map fun q => (q.1, q.2.1.1.1)) ∧
    (∀ a f, readSlave o b a f = (readSlaveD d s a f).map fun q => (q.1, q.2.1, q.2.2.1.1.1)) ∧
    (∀ a f n, sendrecvRequest o st b a f n = (sendrecvRequestD d st s a f n).map fun q =>
      ⟨q.1.code, q.1.chain, q.1.recs, q.1.state.1.1⟩) := by
  have ka := logged_sim (talk_ops k env st.purgeFirst)
  have ks := ka.toSimulates
  have kb : Blind (talkDesk k env st.purgeFirst).logged fun s => s.1.1 := fun _ _ => rfl
  let s : (Bus × List Byte) × List Act := ((b, t), log)
  exact ⟨fun a => sendRequestD_mute ks s a, fun a p => sendPingD_mute ks s a p, fun a n => sendBaudD_mute ks s a n,
    fun a n => sendAppResetD_mute ks s a n, fun a x n => sendUserDataD_mute ks s a x n, fun a n => setPrimaryAddressD_mute ks s a n,
    fun m => sendSelectD_mute ks kb s m, fun m => selectSecondaryD_mute ks kb s m, fun m => probeSecondaryD_mute ka kb st s m,
    fun p m => scanRangeD_mute ka kb st s p m, fun a f => readSlaveD_mute ks kb s a f,
    fun a f n => sendrecvRequestD_mute ks kb st s a f n⟩

/-! ### silence -/

theorem settled_append {a b : List Act} (h : Settled a) (k : Settled b) : Settled (a ++ b) := by
  induction a with
  | nil => exact k
  | cons x a ih =>
    cases x with
    | sent f c => exact ⟨h.1, ih h.2⟩
    | received e g =>
      refine ⟨?_, ih h.2⟩
      rcases h.1 with h | h | h | h | ⟨p, rest, hp, rfl⟩
      · exact .inl h
      · exact .inr (.inl h)
      · exact .inr (.inr (.inl h))
      · exact .inr (.inr (.inr (.inl h)))
      · exact .inr (.inr (.inr (.inr ⟨p, rest ++ b, hp, rfl⟩)))
    | purged p => exact ih h
    | progress m => exact ih h
    | found a f => exact ih h

theorem select_silent {mask q : List Byte} {r : Int} {acts : List Act} {ls : List Note} (h : SelectTells mask q r acts ls) (e : ls = []) :
    Settled acts ∧ r ≠ -1 := by
  cases h <;> simp_all [Settled]

theorem pick_silent {mask q : List Byte} {r : Int} {acts : List Act} {ls : List Note} (h : PickTells mask q r acts ls) (e : ls = []) :
    Settled acts ∧ r ≠ -1 := by
  cases h <;> simp_all [Settled]

theorem probe_silent {mask q : List Byte} {r : Int} {acts : List Act} {ls : List Note} (h : ProbeTells mask q r acts ls) (e : ls = []) :
    Settled acts ∧ r ≠ -1 := by
  induction h with
  | last q' acts ls h => exact select_silent h e
  | again q' r acts acts' ls ls' h _ ih =>
    rw [List.append_eq_nil_iff] at e
    exact ⟨settled_append (select_silent h e.1).1 (ih e.2).1, (ih e.2).2⟩
  | stop r acts ls h hr => exact select_silent h e
  | picked q' r acts acts' ls h k => exact ⟨settled_append (select_silent h rfl).1 (pick_silent k e).1, (pick_silent k e).2⟩

theorem scan_silent {acts : List Act} {ls : List Note} (h : ScanTells acts ls) (e : ls = []) : Settled acts := by
  induction h with
  | nil => trivial
  | probe mask q r acts rest ls more h _ ih =>
    simp only [List.append_eq_nil_iff] at e
    exact settled_append (a := .progress mask :: acts) (probe_silent h e.1.1).1 (ih e.2)

section
variable {σ : Type} {d : Desk σ}

/-- C122: a scan that prints nothing has gone through: it returned 0, every telegram was taken by the transport, and every reply was a timeout,
garbage, an acknowledgement or a long frame, or was followed by further bytes. -/
theorem C122_scan_silent (hq : Recalls d) (st : Settings) (hst : 0 ≤ st.maxSearchRetry) (s : σ) (log : List Act) (pos : Int) (mask : List Byte)
    (r : Int) (s' : σ × List Act) (h : scanRangeD d.logged st (s, log) pos mask = .ok (r, s', [])) :
    r = 0 ∧ mask.length = 16 ∧ ∃ acts, s'.2 = log ++ acts ∧ Settled acts := by
  rcases C122_scan hq st hst s log pos mask r s' [] h with ⟨_, _, _, h⟩ | ⟨hl, acts, h1, h2, h3, _⟩
  · cases h
  · refine ⟨Classical.byContradiction fun hr => h3 hr rfl, hl, acts, h1, scan_silent h2 rfl⟩

/-- C122: `mbus_probe_secondary_address` prints something if it fails; if it prints nothing, every telegram was taken by the transport and every
reply was conclusive. -/
theorem C122_probe_silent (hq : Recalls d) (st : Settings) (hst : 0 ≤ st.maxSearchRetry) (s : σ) (log : List Act) (mask : List Byte) (r : Int)
    (ad : Option (List Byte)) (s' : σ × List Act) (h : probeSecondaryD d.logged st (s, log) mask = .ok (r, ad, s', [])) :
    r ≠ -1 ∧ ∃ acts, s'.2 = log ++ acts ∧ Settled acts := by
  rcases C122_probe hq st hst s log mask r ad s' [] h with ⟨_, _, _, h⟩ | ⟨hl, acts, h1, h2⟩
  · cases h
  · exact ⟨(probe_silent h2 rfl).2, acts, h1, (probe_silent h2 rfl).1⟩

/-- C122: `mbus_read_slave` prints something exactly if it fails. -/
theorem C122_read_silent (hq : Recalls d) (s : σ) (log : List Act) (addr : Address) (reply g : Frame) (r : Int) (s' : σ × List Act) (ls : List Note)
    (h : readSlaveD d.logged (s, log) addr reply = .ok (r, g, s', ls)) : (ls = [] ↔ r = 0) ∧ (r = 0 ∨ r = -1) := by
  obtain ⟨acts, _, h⟩ := C122_read hq s log addr reply g r s' ls h
  have ask : ∀ {a r acts ls}, AskTells a r acts ls → (ls = [] ↔ r = 0) ∧ (r = 0 ∨ r = -1) := by
    intro a r acts ls h
    cases h <;> simp
  cases h with
  | primary a r acts ls h => exact ask h
  | unselected t r acts ls h => simp
  | selected t q r acts acts' ls _ h => exact ask h

/-- C122: each command prints something exactly if it fails. -/
theorem C122_command_silent {fn : List Byte} {refusal : Option (List Byte)} {code : Int} {purge : Bool} {r : Int} {acts : List Act} {ls : List Note}
    (h : CommandTells fn refusal code purge r acts ls) (hc : code ≠ 0) : (ls = [] ↔ r = 0) ∧ ls.length ≤ 1 := by
  cases h <;> simp [hc]

end

/-! ### misleading diagnostics -/

/-- the text in `error_str` after sending -/
def afterSend (k : Kind) (w n : Int) (t : List Byte) : List Byte :=
  match k with
  | .serial => t
  | .tcp => if w = n then t else (cs! "mbus_tcp_send_frame: Failed to write frame to socket (ret = " ++ fmtInt w ++ cs! ")\n").take 127

theorem talk_send (k : Kind) (env : Env) (ho : IsOpen k env) (b : Bus) (t : List Byte) (f : Frame) (u : Spec.Telegram) (hl : u.Legal) (h : Packs f u) :
    (talkLink k env).send (b, t) f =
      .ok (if env.wret b.sent u.wire.length = u.wire.length then 0 else -1, fixed f, busAfter env b u.wire,
        afterSend k (env.wret b.sent u.wire.length) u.wire.length t) := by
  have hp := sendFrame_packs env.junk (env.wret b.sent) f u hl h
  cases k with
  | serial =>
    have ho : env.tty = true := by
      rcases ho with ho | ho
      · cases ho
      · exact ho
    show ((sendFrame env.tty env.junk (env.wret b.sent) f >>= _) >>= _) = _
    rw [ho, hp]
    rfl
  | tcp =>
    obtain ⟨m, bs, h1, h2, h3⟩ := C119_tcp_send env.junk (env.wret b.sent) f _ _ _ hp
    cases h2
    show (tcpSendE env.junk (env.wret b.sent) f >>= _) = _
    rw [h1]
    unfold afterSend
    rcases h3 with ⟨_, h4, rfl⟩ | ⟨_, h4, x, rfl, h5⟩
    · rw [if_pos h4, if_pos h4]; rfl
    · rw [if_neg h4, if_neg h4, ← h5]; rfl

/-- the selection telegram for a mask -/
theorem selectE_packs (mask : List Byte) (hl : mask.length = 16) (hx : ∀ c ∈ mask, IsHex c) :
    ∃ f u, selectPackE (frameNew TYPE_LONG) mask = .ok (0, f, none) ∧ u.Legal ∧ u.wire.length = 17 ∧ Packs f u := by
  obtain ⟨x, h1, h2⟩ := selectPack_eq (frameNew TYPE_LONG) mask hl hx
  have hn := selBytes_length mask ⟨hl, hx⟩
  refine ⟨_, .data 0x73 0xFD 0x52 (x.bytes.take 8), ?_, ⟨(by decide : (0x73 : Byte) ∈ dataCodes), by rw [h2]; omega⟩, ?_,
    packs_long 0x73 0xFD 0x52 x 8 (by decide)⟩
  · unfold selectPackE
    rw [if_neg, h1]
    · rfl
    · have := (C52_address_validation mask 0).1.mpr ⟨hl, hx⟩
      rw [this]; decide
  · rw [wire_length_data, h2, hn]

/-- on a line that does not take the selection telegram -/
theorem select_refused (k : Kind) (env : Env) (ho : IsOpen k env) (purge : Int) (b : Bus) (t : List Byte) (mask : List Byte) (hl : mask.length = 16)
    (hx : ∀ c ∈ mask, IsHex c) (hw : env.wret b.sent 17 ≠ 17) :
    ∃ s', selectSecondaryD (talkDesk k env purge) (b, t) mask = .ok (-1, s', [⟨cs! "mbus_send_select_frame", cs! "Failed to send mbus frame."⟩,
        ⟨selectName, cs! "Failed to send selection frame: " ++ afterSend k (env.wret b.sent 17) 17 t ++ cs! "."⟩]) := by
  obtain ⟨f, u, h1, h2, h3, h4⟩ := selectE_packs mask hl hx
  have hs := talk_send k env ho b t f u h2 h4
  rw [h3, show ((17 : Nat) : Int) = 17 from rfl, if_neg hw] at hs
  refine ⟨(busAfter env b u.wire, afterSend k (env.wret b.sent 17) 17 t), ?_⟩
  unfold selectSecondaryD sendSelectD
  rw [if_neg (by omega), h1]
  have hs' : (talkDesk k env purge).send ((talkDesk k env purge).hear (b, t) none) f =
    .ok (-1, fixed f, busAfter env b u.wire, afterSend k (env.wret b.sent 17) 17 t) := hs
  simp only [ok_bind]
  rw [if_neg (by decide), hs']
  rfl

/-- C122 is violated on the serial line: when the selection telegram cannot be written, `mbus_select_secondary_address` quotes whatever message
an earlier, unrelated call left behind, because `mbus_serial_send_frame` stores none. -/
theorem C122_stale_violation (env : Env) (ho : env.tty = true) (purge : Int) (b : Bus) (t : List Byte) (mask : List Byte) (hl : mask.length = 16)
    (hx : ∀ c ∈ mask, IsHex c) (hw : env.wret b.sent 17 ≠ 17) :
    ∃ s', selectSecondaryD (talkDesk .serial env purge) (b, t) mask =
      .ok (-1, s', [⟨cs! "mbus_send_select_frame", cs! "Failed to send mbus frame."⟩,
        ⟨cs! "mbus_select_secondary_address", cs! "Failed to send selection frame: " ++ t ++ cs! "."⟩]) :=
  select_refused .serial env (.inr ho) purge b t mask hl hx hw

/-- On TCP the quoted text is that of the failure. -/
theorem C122_tcp_quote (env : Env) (purge : Int) (b : Bus) (t : List Byte) (mask : List Byte) (hl : mask.length = 16)
    (hx : ∀ c ∈ mask, IsHex c) (hw : env.wret b.sent 17 ≠ 17) :
    ∃ s' w, selectSecondaryD (talkDesk .tcp env purge) (b, t) mask =
      .ok (-1, s', [⟨cs! "mbus_send_select_frame", cs! "Failed to send mbus frame."⟩,
        ⟨cs! "mbus_select_secondary_address", cs! "Failed to send selection frame: " ++ w ++ cs! "."⟩]) ∧
      Cut w (cs! "mbus_tcp_send_frame: Failed to write frame to socket (ret = " ++ intText (env.wret b.sent 17) ++ cs! ")\n") := by
  obtain ⟨s', h⟩ := select_refused .tcp env (.inl rfl) purge b t mask hl hx hw
  refine ⟨s', _, h, ?_⟩
  unfold afterSend Cut
  rw [if_neg hw, intText_eq]

theorem tcp_closed (es : List Ev) (f : Frame) : tcpRecvE (.data [] :: es) f =
    .ok (⟨RECV_RESET, f, es, none⟩, some (cs! "M-Bus tcp transport layer connection closed by remote host.")) := by
  unfold tcpRecvE
  rw [tcpLoopE, if_neg (by decide)]
  simp [readEv]

/-- C122 is violated when the connection breaks during the selection: the gateway closes the connection, and `mbus_read_slave` reports an
unexpected reply and that no device has this address. -/
theorem C122_broken_violation (env : Env) (b : Bus) (t : List Byte) (mask : List Byte) (hl : mask.length = 16) (hx : ∀ c ∈ mask, IsHex c)
    (hw : env.wret b.sent 17 = 17) (hb : b.script = []) (hr : ∀ x, env.respond (b.sent ++ [x]) = [.data []]) (reply : Frame) :
    ∃ s', readSlaveD (talkDesk .tcp env PURGE_M2S) (b, t) (.secondary mask) reply =
      .ok (-1, reply, s', [⟨cs! "mbus_select_secondary_address", cs! "Unexpected reply for address [" ++ mask ++ cs! "]."⟩,
        ⟨cs! "mbus_read_slave", cs! "The selected secondary address [" ++ mask ++ cs! "] does not match any device."⟩]) := by
  obtain ⟨f, u, h1, h2, h3, h4⟩ := selectE_packs mask hl hx
  have hs := talk_send .tcp env (.inl rfl) b t f u h2 h4
  rw [h3, show ((17 : Nat) : Int) = 17 from rfl, if_pos hw] at hs
  have hs' : (talkDesk .tcp env PURGE_M2S).send ((talkDesk .tcp env PURGE_M2S).hear (b, t) none) f =
    .ok (0, fixed f, busAfter env b u.wire, t) := by
    refine hs.trans ?_
    show Except.ok (_, _, _, if env.wret b.sent 17 = 17 then t else _) = _
    rw [if_pos hw]
  have hc : (talkDesk .tcp env PURGE_M2S).recv (busAfter env b u.wire, t) Frame.zero =
      .ok (RECV_RESET, Frame.zero, ⟨[], (busAfter env b u.wire).sent⟩, cs! "M-Bus tcp transport layer connection closed by remote host.") := by
    show recvFrame (talkLink .tcp env) PURGE_M2S (busAfter env b u.wire, t) Frame.zero = _
    have : (talkLink .tcp env).recv (busAfter env b u.wire, t) Frame.zero =
      .ok (RECV_RESET, Frame.zero, ⟨[], (busAfter env b u.wire).sent⟩, cs! "M-Bus tcp transport layer connection closed by remote host.") := by
      show (tcpRecvE (busAfter env b u.wire).script Frame.zero >>= _) = _
      have : (busAfter env b u.wire).script = [.data []] := by
        show b.script ++ _ = _
        rw [hb, hr]; rfl
      rw [this, tcp_closed]
      rfl
    unfold recvFrame
    rw [this]
    rfl
  have hsel : selectSecondaryD (talkDesk .tcp env PURGE_M2S) (b, t) mask =
      .ok (0, (⟨[], (busAfter env b u.wire).sent⟩, cs! "M-Bus tcp transport layer connection closed by remote host."),
        [⟨cs! "mbus_select_secondary_address", cs! "Unexpected reply for address [" ++ mask ++ cs! "]."⟩]) := by
    unfold selectSecondaryD sendSelectD
    rw [if_neg (by omega), h1]
    simp only [ok_bind]
    rw [if_neg (by decide), hs']
    simp only [ok_bind]
    rw [if_neg (by decide)]
    simp only [ok_bind]
    rw [if_neg (by decide), hc]
    rfl
  refine ⟨(⟨[], (busAfter env b u.wire).sent⟩, cs! "M-Bus tcp transport layer connection closed by remote host."), ?_⟩
  unfold readSlaveD approachD
  dsimp only
  rw [hsel]
  rfl

/-- A scan that was given up returns 0 all the same: only stderr tells. -/
theorem C122_scan_only_stderr (env : Env) (st : Settings) (hst : 0 ≤ st.maxSearchRetry) (b : Bus) (t : List Byte)
    (hw : env.wret b.sent 17 ≠ 17) :
    ∃ s' w, scanRangeD (talkDesk .tcp env st.purgeFirst) st (b, t) 0 (cs! "1FFFFFFFFFFFFFFF") =
      .ok (0, s', [⟨cs! "mbus_send_select_frame", cs! "Failed to send mbus frame."⟩,
        ⟨cs! "mbus_select_secondary_address", cs! "Failed to send selection frame: " ++ w ++ cs! "."⟩,
        ⟨cs! "mbus_scan_2nd_address_range", cs! "Failed to probe secondary address [10FFFFFFFFFFFFFF]."⟩]) := by
  obtain ⟨s', h⟩ := select_refused .tcp env (.inl rfl) st.purgeFirst b t (cs! "10FFFFFFFFFFFFFF") rfl (by decide) hw
  refine ⟨s', afterSend .tcp (env.wret b.sent 17) 17 t, ?_⟩
  obtain ⟨n, hn⟩ : ∃ n, (st.maxSearchRetry + 1).toNat = n + 1 := ⟨st.maxSearchRetry.toNat, by omega⟩
  have hp : probeSecondaryD (talkDesk .tcp env st.purgeFirst) st (b, t) (cs! "10FFFFFFFFFFFFFF") =
      .ok (-1, none, s', [⟨cs! "mbus_send_select_frame", cs! "Failed to send mbus frame."⟩,
        ⟨selectName, cs! "Failed to send selection frame: " ++ afterSend .tcp (env.wret b.sent 17) 17 t ++ cs! "."⟩]) := by
    unfold probeSecondaryD
    rw [if_neg (by decide), hn]
    unfold probeLoopD
    rw [h]
    rfl
  have hk : scanLoopD (talkDesk .tcp env st.purgeFirst) st 1 (scanAtD (talkDesk .tcp env st.purgeFirst) st 14)
    (cs! "1FFFFFFFFFFFFFFF") (48 :: decimalDigits.tail) (b, t) =
      .ok (-1, s', [⟨cs! "mbus_send_select_frame", cs! "Failed to send mbus frame."⟩,
        ⟨selectName, cs! "Failed to send selection frame: " ++ afterSend .tcp (env.wret b.sent 17) 17 t ++ cs! "."⟩,
        ⟨cs! "mbus_scan_2nd_address_range", cs! "Failed to probe secondary address [10FFFFFFFFFFFFFF]."⟩]) := by
    unfold scanLoopD
    show (probeSecondaryD (talkDesk .tcp env st.purgeFirst) st (b, t) (cs! "10FFFFFFFFFFFFFF") >>= _) = _
    rw [hp]
    rfl
  have h15 : scanAtD (talkDesk .tcp env st.purgeFirst) st 15 (b, t) (cs! "1FFFFFFFFFFFFFFF") = _ := (by unfold scanAtD; exact hk)
  unfold scanRangeD
  rw [if_neg (by decide), if_neg (by decide)]
  show scanAtD _ st 16 (b, t) _ = _
  unfold scanAtD
  show (scanAtD (talkDesk .tcp env st.purgeFirst) st 15 (b, t) (cs! "1FFFFFFFFFFFFFFF") >>= _) = _
  rw [h15]
  rfl

/-! ### concrete cases -/

/-- a line on which every `write` fails -/
def deaf : Env := { quiet with wret := fun _ _ => -1 }
/-- a gateway that closes the connection as soon as something is sent -/
def gone : Env := { quiet with respond := fun _ => [.data []] }

/-- a handle on which sending returns `c`, receiving returns `e` with frame `g` and purging returns `p` -/
def mock (c e p : Int) (g : Frame) : Desk (List Byte) where
  send s f := .ok (c, f, s)
  recv s _ := .ok (e, g, s)
  purge s := .ok (p, s)
  progress s _ := s
  found s _ _ := s
  quote s := s
  tell _ t := t

theorem mock_recalls (c e p : Int) (g : Frame) : Recalls (mock c e p g) := fun _ _ => rfl

example := C122_request (d := mock (-1) 0 0 Frame.zero) (cs! "old") [] 5 (-1) _ _ rfl
example := C122_request (d := mock 0 0 0 Frame.zero) (cs! "old") [] 256 (-1) _ _ rfl
example := C122_ping (d := mock 0 0 1 Frame.zero) (cs! "old") [] 5 true 0 _ _ rfl
example := C122_baud (d := mock 0 0 1 Frame.zero) (cs! "old") [] 5 1234 (-1) _ _ rfl
example := C122_reset (d := mock 0 0 1 Frame.zero) (cs! "old") [] 5 256 (-1) _ _ rfl
example := C122_reset (d := mock 0 0 1 Frame.zero) (cs! "old") [] 5 0x10 0 _ _ rfl
example := C122_data (d := mock 0 0 1 Frame.zero) (cs! "old") [] 5 [1, 2] 0 (-1) _ _ rfl
example := C122_set_address (d := mock 0 0 1 Frame.zero) (cs! "old") [] 5 253 (-1) _ _ rfl
example := C122_set_address (d := mock (-1) 0 1 Frame.zero) (cs! "old") [] 5 7 (-1) _ _ rfl
example := C122_select (mock_recalls 0 RECV_OK 0 { Frame.zero with type := 2 }) (cs! "old") [] (cs! "12345678FFFFFFFF") 0 _ _ rfl
example := C122_select (mock_recalls 0 RECV_OK 0 Frame.zero) (cs! "old") [] (cs! "1234567GFFFFFFFF") (-1) _ _ rfl
example := C122_read (mock_recalls 0 RECV_OK 1 { Frame.zero with type := 1 }) (cs! "old") [] (.secondary (cs! "12345678FFFFFFFF")) Frame.zero _ (-1) _ _ rfl
example := C122_read_silent (mock_recalls 0 RECV_OK 0 { Frame.zero with type := 1 }) (cs! "old") [] (.secondary (cs! "12345678FFFFFFFF")) Frame.zero _ 0 _ _ rfl
example : sendrecvRequestD (mock 0 RECV_ERROR 0 Frame.zero).logged Settings.default (cs! "old", []) 5 Frame.zero 1 =
    .ok (⟨1, [Frame.zero], .null, (cs! "old", [.sent { frameNew TYPE_SHORT with control := 0x7B, address := 5 } 0, .received RECV_ERROR Frame.zero])⟩,
      [requestLine (cs! "Failed to receive M-Bus response frame.")]) := by
  unfold sendrecvRequestD
  rw [if_neg (by decide), sendrecvLoopD]
  rfl
example := C122_probe (mock_recalls 0 RECV_OK 0 { Frame.zero with type := 1 }) Settings.default (by decide) (cs! "old") [] (cs! "12345678FFFFFFFF") 0 none _ _ rfl
example := C122_probe_silent (mock_recalls 0 RECV_TIMEOUT 0 Frame.zero) Settings.default (by decide) (cs! "old") [] (cs! "12345678FFFFFFFF") 0 none _ rfl
example := C122_scan (mock_recalls (-1) RECV_OK 0 Frame.zero) Settings.default (by decide) (cs! "old") [] 15 (cs! "12345678FFFFFFF5") (-1) _ _ rfl
example := C122_scan_silent (mock_recalls 0 RECV_TIMEOUT 0 Frame.zero) Settings.default (by decide) (cs! "old") [] 15 (cs! "12345678FFFFFFFF") 0 _ rfl
example := C122_command_silent (.notSent (fn := []) (refusal := none) (code := 1) (purge := true) Frame.zero rfl) (by decide)
example := C122_same .serial deaf Settings.default ⟨[], [[0xE5]]⟩ (cs! "old") []

example := C122_stale_violation deaf rfl PURGE_M2S ⟨[], [[0xE5]]⟩ (cs! "an old message") (cs! "12345678FFFFFFFF") rfl (by decide) (by decide)
example := C122_tcp_quote deaf PURGE_M2S ⟨[], [[0xE5]]⟩ (cs! "an old message") (cs! "12345678FFFFFFFF") rfl (by decide) (by decide)
example := C122_broken_violation gone ⟨[], [[0xE5]]⟩ (cs! "an old message") (cs! "12345678FFFFFFFF") rfl (by decide) rfl rfl (fun _ => rfl) Frame.zero
example := C122_scan_only_stderr deaf Settings.default (by decide) ⟨[], []⟩ (cs! "an old message") (by decide)

end Mbus
