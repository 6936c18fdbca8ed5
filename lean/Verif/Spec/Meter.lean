import Verif.Model.Bus
import Verif.Spec.Deliver
import Verif.Spec.Link
/-
Specification of a meter with a multi-telegram readout on a lossy bus: it advances to the next telegram when the frame count
bit of a request toggles and repeats the last one when it does not (EN 13757-2).
-/
namespace Mbus.Spec

/-- what becomes of one transmission and of the answer to it -/
inductive Fate where
  | delivered
  | requestLost
  | replyLost
  /-- only a byte of noise arrives instead of the answer -/
  | noise (b : Byte)

/-- number of telegrams the meter has moved on to, and the frame count bit of the last request (cleared by a reset) -/
structure Meter where
  pos : Nat
  fcb : Bool

/-- the meter with primary address `a` hears a request -/
def Meter.hear (a : Byte) (m : Meter) (req : List Byte) : Meter :=
  if req = (Telegram.short 0x7B a).wire then (if m.fcb = true then m else ⟨m.pos + 1, true⟩)
  else if req = (Telegram.short 0x5B a).wire then (if m.fcb = false then m else ⟨m.pos + 1, false⟩)
  else m

/-- is the transmission heard by the meter? -/
def Fate.heard : Fate → Bool
  | .requestLost => false
  | _ => true

/-- the meter after the transmissions `reqs`, the first of which has number `n` -/
def Meter.after (a : Byte) (fate : Nat → Fate) : Nat → List (List Byte) → Meter → Meter
  | _, [], m => m
  | n, r :: rs, m => Meter.after a fate (n + 1) rs (if (fate n).heard then m.hear a r else m)

/-- the bus with this meter: what arrives after the last of the transmissions `sent` -/
def meterEnv (a : Byte) (ts : List Telegram) (fate : Nat → Fate) : Env where
  respond sent :=
    match fate (sent.length - 1) with
    | .requestLost => []
    | .replyLost => []
    | .noise b => [.data [b]]
    | .delivered =>
      match ts[(Meter.after a fate 0 sent ⟨0, false⟩).pos - 1]? with
      | some t => [.data t.wire]
      | none => []
  junk _ := 0
  wret _ n := n
  tty := true

/-- a variable data response that the record structures can hold, announcing more records or not -/
def ReadableT (more : Bool) (t : Telegram) : Prop :=
  ∃ c a p rs, t = .data c a 0x72 p ∧ c ∈ [0x08, 0x18, 0x28, 0x38] ∧ 12 ≤ p.length ∧ p.length ≤ 252 ∧
    Tiles (p.drop 12) rs ∧ (EndsWithMore rs ↔ more = true)

/-- a complete readout: all telegrams but the last announce that more follow -/
def Readout : List Telegram → Prop
  | [] => False
  | [t] => ReadableT false t
  | t :: ts => ReadableT true t ∧ Readout ts

end Mbus.Spec
