import Verif.Model.Diag
import Verif.Lemmas.MessagesIo
/-
The handles of the two transports with `error_str`, for the functions of Model/Diag.
-/
namespace Mbus

/-- mbus-tcp.c:190-256 and mbus-serial.c:287-382: the `recv` function of a handle with its message -/
def kindRecvE (k : Kind) (tty : Bool) (es : List Ev) (f : Frame) : C (RecvOut × Said) :=
  match k with
  | .tcp => tcpRecvE es f
  | .serial => serialRecvE tty es f

theorem kindRecvE_mute (k : Kind) (tty : Bool) (es : List Ev) (f : Frame) : silent (kindRecvE k tty es f) = kindRecv k tty es f := by
  cases k with
  | tcp => exact tcpLoopE_mute es f _ 0 0 none
  | serial =>
    cases tty with
    | false => rfl
    | true => exact serialLoopE_mute _ es f _ 0 0 0 none (Nat.le_refl _)

/-- mbus-tcp.c:150-185 and mbus-serial.c:226-282: the `send` function of a handle with its message (`mbus_serial_send_frame` stores none). -/
def kindSendE (k : Kind) (tty : Bool) (junk : Nat → Byte) (wret : Nat → Int) (f : Frame) : C (Int × Frame × Option (List Byte) × Said) :=
  match k with
  | .tcp => tcpSendE junk wret f
  | .serial => do
    let (r, f, w) ← sendFrame tty junk wret f
    .ok (r, f, w, none)

theorem kindSendE_mute (k : Kind) (tty : Bool) (junk : Nat → Byte) (wret : Nat → Int) (f : Frame) :
    (kindSendE k tty junk wret f).map (fun q => (q.1, q.2.1, q.2.2.1)) = sendFrame (match k with | .tcp => true | .serial => tty) junk wret f := by
  cases k with
  | tcp =>
    show (tcpSendE junk wret f).map _ = _
    unfold tcpSendE sendFrame
    rw [if_neg (by simp)]
    cases framePack f ((List.range PACKET_BUFF_SIZE).map junk) PACKET_BUFF_SIZE with
    | error e => rfl
    | ok q =>
      obtain ⟨len, f, buff⟩ := q
      simp only [ok_bind]
      split
      · rfl
      · split
        · rfl
        · split <;> rfl
  | serial =>
    show (do let (r, f, w) ← sendFrame tty junk wret f; .ok (r, f, w, none) : C _).map _ = _
    cases sendFrame tty junk wret f with
    | error e => rfl
    | ok q => rfl

theorem kindRecvE_recv {k : Kind} {tty : Bool} {es : List Ev} {f : Frame} {q : RecvOut × Said} (h : kindRecvE k tty es f = .ok q) :
    kindRecv k tty es f = .ok q.1 := by rw [← kindRecvE_mute, h]; rfl

/-- mbus-protocol-aux.c:1714-1745 with mbus-tcp.c and mbus-serial.c: `busLink` (Model/Bus) with the text that is in `error_str` (mbus-protocol.c:19:
one for the whole process), without its NUL. -/
def talkLink (k : Kind) (env : Env) : Link (Bus × List Byte) where
  send b f := do
    let (r, f, w, m) ← kindSendE k env.tty env.junk (env.wret b.1.sent) f
    match w with
    | none => .ok (r, f, b.1, m.getD b.2)
    | some bytes => .ok (r, f, { script := b.1.script ++ env.respond (b.1.sent ++ [bytes]), sent := b.1.sent ++ [bytes] }, m.getD b.2)
  recv b f := do
    let (out, m) ← kindRecvE k env.tty b.1.script f
    .ok (out.code, out.frame, { b.1 with script := out.rest }, m.getD b.2)
  pending b := evWeight b.1.script
  recv_le := by
    intro s f c f' s' h
    obtain ⟨⟨out, m⟩, h1, h⟩ := bind_eq_ok.mp h
    obtain ⟨out', h2, h3, _⟩ := kindRecv_weight k env.tty s.1.script f
    rw [kindRecvE_recv h1] at h2
    cases h2
    cases h
    exact h3
  recv_lt := by
    intro s f c f' s' h hc
    obtain ⟨⟨out, m⟩, h1, h⟩ := bind_eq_ok.mp h
    obtain ⟨out', h2, _, h3⟩ := kindRecv_weight k env.tty s.1.script f
    rw [kindRecvE_recv h1] at h2
    cases h2
    cases h
    exact h3 hc

/-- mbus-protocol.c:81-85 `mbus_error_str` and the handle of `talkLink` -/
def talkDesk (k : Kind) (env : Env) (purge : Int) : Desk (Bus × List Byte) :=
  { (talkLink k env).ops purge with quote := Prod.snd, tell := fun s t => (s.1, t) }

end Mbus
