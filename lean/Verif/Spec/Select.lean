import Verif.Model.Trace
import Verif.Spec.Link
import Verif.Spec.Address
/-
Specification of selection: the outcome as a function of what happened on the handle.
-/
namespace Mbus.Spec

/-- the frame is the selection telegram (SND_UD with FCB to address FD, CI 52) for the address mask `mask` -/
def SelectionFrame (mask : List Byte) (f : Frame) : Prop :=
  ∃ p, p.length = 8 ∧ Carries f (.data 0x73 0xFD 0x52 p) ∧ ((∀ c ∈ mask.take 8, IdDigit c) → p = addressBytes mask)

/-- 16 hexadecimal digits -/
def AddressMask (mask : List Byte) : Prop := mask.length = 16 ∧ ∀ c ∈ mask, IsHex c

/-- outcome (0 nothing, 1 single, 2 collision, -1 error) of a selection with `mask` during which exactly `log` happened -/
inductive Selection (mask : List Byte) : Int → List Act → Prop
  /-- refused: nothing happens on the bus -/
  | malformed : ¬ AddressMask mask → Selection mask (-1) []
  | sendFailed (f : Frame) : AddressMask mask → SelectionFrame mask f → Selection mask (-1) [.sent f (-1)]
  /-- no answer -/
  | silence (f : Frame) (c : Int) (g : Frame) : AddressMask mask → SelectionFrame mask f → c ≠ -1 →
      Selection mask 0 [.sent f c, .received RECV_TIMEOUT g]
  /-- garbage -/
  | garbage (f : Frame) (c : Int) (g : Frame) (r : Int) : AddressMask mask → SelectionFrame mask f → c ≠ -1 →
      Selection mask 2 [.sent f c, .received RECV_INVALID g, .purged r]
  /-- an acknowledge, and something after it -/
  | crowd (f : Frame) (c rc : Int) (g : Frame) (r : Int) : AddressMask mask → SelectionFrame mask f → c ≠ -1 →
      rc ≠ RECV_TIMEOUT → rc ≠ RECV_INVALID → Carries g .ack → r ≠ 0 →
      Selection mask 2 [.sent f c, .received rc g, .purged r]
  /-- an acknowledge, and nothing after it -/
  | single (f : Frame) (c rc : Int) (g : Frame) : AddressMask mask → SelectionFrame mask f → c ≠ -1 →
      rc ≠ RECV_TIMEOUT → rc ≠ RECV_INVALID → Carries g .ack →
      Selection mask 1 [.sent f c, .received rc g, .purged 0]
  /-- something else than an acknowledge -/
  | other (f : Frame) (c rc : Int) (g : Frame) : AddressMask mask → SelectionFrame mask f → c ≠ -1 →
      rc ≠ RECV_TIMEOUT → rc ≠ RECV_INVALID → ¬ Carries g .ack →
      Selection mask 0 [.sent f c, .received rc g]

/-- outcome of the data request to address FD once a selection said "single": code, reported address, what happened -/
inductive Identify : Int → Option (List Byte) → List Act → Prop
  | sendFailed (f : Frame) : Carries f (.short 0x5B 0xFD) → Identify (-1) none [.sent f (-1)]
  /-- no answer -/
  | silence (f : Frame) (c : Int) (g : Frame) : Carries f (.short 0x5B 0xFD) → c ≠ -1 →
      Identify 0 none [.sent f c, .received RECV_TIMEOUT g]
  /-- garbage -/
  | garbage (f : Frame) (c : Int) (g : Frame) (r : Int) : Carries f (.short 0x5B 0xFD) → c ≠ -1 →
      Identify 2 none [.sent f c, .received RECV_INVALID g, .purged r]
  /-- an answer, and something after it -/
  | crowd (f : Frame) (c rc : Int) (g : Frame) (r : Int) : Carries f (.short 0x5B 0xFD) → c ≠ -1 →
      rc ≠ RECV_TIMEOUT → rc ≠ RECV_INVALID → r ≠ 0 → Identify 2 none [.sent f c, .received rc g, .purged r]
  /-- one long telegram from which the address can be read -/
  | single (f : Frame) (c rc : Int) (g : Frame) (a : List Byte) : Carries f (.short 0x5B 0xFD) → c ≠ -1 →
      rc ≠ RECV_TIMEOUT → rc ≠ RECV_INVALID → g.type = TYPE_LONG → getSecondaryAddress g = .ok (some a) →
      Identify 1 (some (a.take 16)) [.sent f c, .received rc g, .purged 0, .found (a.take 16) g]
  /-- something else -/
  | other (f : Frame) (c rc : Int) (g : Frame) : Carries f (.short 0x5B 0xFD) → c ≠ -1 →
      rc ≠ RECV_TIMEOUT → rc ≠ RECV_INVALID → (g.type = TYPE_LONG → getSecondaryAddress g = .ok none) →
      Identify 0 none [.sent f c, .received rc g, .purged 0]

/-- outcome of a probe with at most `n` selections during which exactly the log happened: selections that find nothing are
repeated, the first one that finds something (or fails) decides -/
inductive Probing (mask : List Byte) : (n : Nat) → Int → Option (List Byte) → List Act → Prop
  | exhausted : Probing mask 0 0 none []
  | decided (n : Nat) (r : Int) (l : List Act) : r = -1 ∨ r = 2 → Selection mask r l → Probing mask (n + 1) r none l
  | again (n : Nat) (r : Int) (a : Option (List Byte)) (l l' : List Act) : Selection mask 0 l → Probing mask n r a l' →
      Probing mask (n + 1) r a (l ++ l')
  | selected (n : Nat) (r : Int) (a : Option (List Byte)) (l l' : List Act) : Selection mask 1 l → Identify r a l' →
      Probing mask (n + 1) r a (l ++ l')

/-- the last thing that happened is garbage, or more data after an answer: several meters answered -/
def Collided (l : List Act) : Prop :=
  ∃ pre r, l = pre ++ [.purged r] ∧ (r ≠ 0 ∨ ∃ pre' g, pre = pre' ++ [.received RECV_INVALID g])

/-- the handle failed to send, or the mask was refused and nothing happened at all -/
def Failed (l : List Act) : Prop := l = [] ∨ ∃ pre f, l = pre ++ [.sent f (-1)]

/-- the frame travels from the master to a meter: not an acknowledge, direction bit set -/
def FromMaster (f : Frame) : Prop := f.type ≠ 1 ∧ f.control &&& 0x40 ≠ 0

end Mbus.Spec
