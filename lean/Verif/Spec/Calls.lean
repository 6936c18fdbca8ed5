import Verif.Model.Calls
import Verif.Spec.Command
import Verif.Spec.Session
import Verif.Spec.Select
/-
What a program may pass to a call, and which telegrams a call may put on the bus.
-/
namespace Mbus.Spec

/-- The caller's part: user data are as long as announced, a frame sent directly is a legal telegram with its start and stop
bytes in place (length and checksum fields are filled in by the library), reply objects are frames. -/
def Proper : Call → Prop
  | .send f => ∃ t : Telegram, t.Legal ∧ Carries f t ∧ StartStop f t
  | .userData _ data size => size ≤ data.length
  | .sendrecv _ reply _ => reply.dataSize ≤ 252
  | _ => True

/-- The undefined behaviour a call may run into (with proper arguments): reading records out of a reply can leave the bounds (C27),
a multi-telegram request can free records twice (C46). -/
def MayFault : Call → Fault → Prop
  | .probe _, e => ParserFault e
  | .scan _ _, e => ParserFault e
  | .sendrecv _ _ _, e => ParserFault e ∨ e = .doubleFree
  | _, _ => False

/-- `a` as an address byte -/
def IsAddress (a : Int) (n : Byte) : Prop := a = (n.toNat : Int)

/-- a selection telegram for `mask` -/
def Selects (mask : List Byte) : Telegram → Prop
  | .data c a ci p => c = 0x73 ∧ a = 0xFD ∧ ci = 0x52 ∧ p.length = 8 ∧ AddressMask mask ∧
      ((∀ c ∈ mask.take 8, IdDigit c) → p = addressBytes mask)
  | _ => False

/-- The telegrams a call may transmit. -/
def Sends : Call → Telegram → Prop
  | .send f, t => Carries f t
  | .recv _, _ => False
  | .purge, _ => False
  | .option _ _, _ => False
  | .request a, t => ∃ n, IsAddress a n ∧ t = .short 0x5B n
  | .ping a _, t => ∃ n, IsAddress a n ∧ t = .short 0x40 n
  | .baud a rate, t => ∃ n ci, IsAddress a n ∧ (rate, ci) ∈ baudTable ∧ t = .data 0x53 n ci []
  | .reset a c, t => ∃ n, IsAddress a n ∧ ((c < 0 ∧ t = .data 0x53 n 0x50 []) ∨ ∃ m, IsAddress c m ∧ t = .data 0x53 n 0x50 [m])
  | .userData a data size, t => ∃ n, IsAddress a n ∧ 1 ≤ size ∧ size ≤ 252 ∧ t = .data 0x53 n 0x51 (data.take size)
  | .setAddress old new, t => ∃ n m, IsAddress old n ∧ IsAddress new m ∧ m.toNat ≤ 252 ∧ t = .data 0x53 n 0x51 [0x01, 0x7A, m]
  | .sendSelect mask, t => Selects mask t
  | .select mask, t => Selects mask t
  | .probe mask, t => Selects mask t ∨ t = .short 0x5B 0xFD
  | .scan _ _, t => (∃ mask, Selects mask t) ∨ t = .short 0x5B 0xFD
  | .readSlave (.primary a) _, t => ∃ n, IsAddress a n ∧ t = .short 0x5B n
  | .readSlave (.secondary text) _, t => Selects text t ∨ t = .short 0x5B 0xFD
  | .sendrecv a _ _, t => ∃ n, IsAddress a n ∧ (t = .short 0x5B n ∨ t = .short 0x7B n)

end Mbus.Spec
