import Verif.Model.Trace
import Verif.Spec.Deliver
/-
Vocabulary for statements about a session: what can be read off the log of the calls made on the handle.
-/
namespace Mbus.Spec

/-- the telegrams accepted (received with result OK), in order -/
def accepted : List Act → List Frame
  | [] => []
  | .received c f :: t => if c = RECV_OK then f :: accepted t else accepted t
  | _ :: t => accepted t

/-- number of transmissions -/
def sends : List Act → Nat
  | [] => 0
  | .sent _ _ :: t => sends t + 1
  | _ :: t => sends t

/-- The frame is a response with variable data whose last record announces that more records follow. -/
def MoreFollows (f : Frame) : Prop :=
  f.control &&& 0x40 = 0 ∧ f.ci = 0x72 ∧ 12 ≤ f.dataSize ∧ ∃ rs, Tiles ((payload f).drop 12) rs ∧ EndsWithMore rs

/-- The request telegram number `n` (from 0) to address `a`: short frame REQ_UD2 with FCV set and FCB set in the first
telegram, then alternating. -/
def IsRequest (a : Byte) (n : Nat) (f : Frame) : Prop :=
  f.type = 2 ∧ f.address = a ∧ f.control = if n % 2 = 0 then 0x7B else 0x5B

/-- What is assumed of a handle: transmitting a short frame changes neither type, address nor control field of the caller's
frame object, and receiving never makes its payload longer than 252 bytes.  (Both transports satisfy this: `handle_sound`.) -/
structure Sound {σ : Type} (o : Ops σ) : Prop where
  send : ∀ s f r f' s', f.type = 2 → o.send s f = .ok (r, f', s') →
    f'.type = f.type ∧ f'.address = f.address ∧ f'.control = f.control
  recv : ∀ s f c f' s', f.dataSize ≤ 252 → o.recv s f = .ok (c, f', s') → f'.dataSize ≤ 252

/-- the possible endings of a request: return code, chain and log -/
inductive Ending (max mf : Int) : Int → List Frame → List Act → Prop
  /-- success: the last telegram was accepted, could be parsed, and no more follows or the limit is reached -/
  | done (pre : List Act) (f : Frame) (r : Int) (x : FrameData) : frameDataParse f FrameData.new = .ok (0, x) →
      (MoreFollows f → mf ≤ (accepted (pre ++ [.received RECV_OK f, .purged r])).length) →
      Ending max mf 0 (accepted (pre ++ [.received RECV_OK f, .purged r])) (pre ++ [.received RECV_OK f, .purged r])
  /-- a transmission failed -/
  | sendFailed (pre : List Act) (f g : Frame) :
      Ending max mf (-1) (accepted (pre ++ [.sent f (-1)]) ++ [g]) (pre ++ [.sent f (-1)])
  /-- `max + 1` transmissions in a row without an accepted reply -/
  | exhausted (pre seg : List Act) (g : Frame) : accepted seg = [] → (sends seg : Int) = max + 1 →
      Ending max mf 1 (accepted (pre ++ seg) ++ [g]) (pre ++ seg)
  /-- the link failed -/
  | linkFailed (pre : List Act) (c : Int) (f : Frame) : c ≠ RECV_OK → c ≠ RECV_TIMEOUT → c ≠ RECV_INVALID →
      Ending max mf 1 (accepted (pre ++ [.received c f]) ++ [f]) (pre ++ [.received c f])
  /-- the accepted telegram is not a parsable response -/
  | unreadable (pre : List Act) (f : Frame) (r : Int) (x : FrameData) : frameDataParse f FrameData.new = .ok (-1, x) →
      Ending max mf 1 (accepted (pre ++ [.received RECV_OK f, .purged r])) (pre ++ [.received RECV_OK f, .purged r])

/-- Assumptions about a handle: no operation is undefined behaviour, and if more than one telegram may be read (`1 < mf`) then
the meter is orderly: after announcing more records (`V`) it sends only variable data telegrams. -/
structure Orderly {σ : Type} (o : Ops σ) (V : σ → Prop) (mf : Int) : Prop where
  send : ∀ s f, f.type = 2 → ∃ r f' s', o.send s f = .ok (r, f', s') ∧ f'.type = 2 ∧ (V s → V s')
  recv : ∀ s f, f.dataSize ≤ 252 → ∃ c f' s', o.recv s f = .ok (c, f', s') ∧ f'.dataSize ≤ 252 ∧ (V s → V s') ∧
    (c = RECV_OK → (V s → f'.ci = 0x72) ∧ (1 < mf → MoreFollows f' → V s'))
  purge : ∀ s, ∃ r s', o.purge s = .ok (r, s') ∧ (V s → V s')

/-- the three faults of the record parser (C27) -/
def ParserFault (e : Fault) : Prop := e = .oobRead 252 252 ∨ e = .oobWrite 128 128 ∨ e = .oobWrite 234 234

end Mbus.Spec
