import Verif.Model.Frame
/-
Specification of the M-Bus link layer (EN 13757-2 / documentation of mbus-protocol.h:34-72), written from the protocol
description, independent of the parser: what telegrams exist, what they look like on the wire, and what it
means for a frame object to carry one.  (Only the `Frame` record type is shared with the model.)
-/
namespace Mbus.Spec

/-- Control codes of short telegrams: SND_NKE, REQ_UD1 and REQ_UD2 with FCB 0/1. -/
def shortCodes : List Byte := [0x40, 0x5A, 0x7A, 0x5B, 0x7B]

/-- Control codes of control/long telegrams: SND_UD with FCB 0/1, RSP_UD with any ACD/DFC. -/
def dataCodes : List Byte := [0x53, 0x73, 0x08, 0x18, 0x28, 0x38]

/-- Arithmetic sum modulo 256. -/
def byteSum : List Byte → Byte
  | [] => 0
  | b :: bs => b + byteSum bs

/-- A link-layer telegram. A `data` telegram with empty payload is a "control frame". -/
inductive Telegram where
  | ack
  | short (c a : Byte)
  | data (c a ci : Byte) (payload : List Byte)
  deriving DecidableEq, Repr

/-- Telegrams the protocol allows. -/
def Telegram.Legal : Telegram → Prop
  | .ack => True
  | .short c _ => c ∈ shortCodes
  | .data c _ _ p => c ∈ dataCodes ∧ p.length ≤ 252

instance (t : Telegram) : Decidable t.Legal := by
  cases t <;> unfold Telegram.Legal <;> infer_instance

/-- Bytes on the wire. -/
def Telegram.wire : Telegram → List Byte
  | .ack => [0xE5]
  | .short c a => [0x10, c, a, c + a, 0x16]
  | .data c a ci p =>
      let l := UInt8.ofNat (p.length + 3)
      [0x68, l, l, 0x68, c, a, ci] ++ p ++ [byteSum (c :: a :: ci :: p), 0x16]

/-- The frame object `f` describes telegram `t` (type and user-visible fields). -/
def Carries (f : Frame) : Telegram → Prop
  | .ack => f.type = 1
  | .short c a => f.type = 2 ∧ f.control = c ∧ f.address = a
  | .data c a ci p =>
      f.type = (if p = [] then 3 else 4) ∧ f.control = c ∧ f.address = a ∧ f.ci = ci ∧
      f.dataSize = p.length ∧ f.data.bytes.take f.dataSize = p

instance (f : Frame) (t : Telegram) : Decidable (Carries f t) := by
  cases t <;> unfold Carries <;> infer_instance

/-- All the fixed fields of `f` are those a correct telegram of its type has (start/stop bytes, length fields,
checksum).  ACK: start byte only. -/
def WellFormed (f : Frame) : Prop :=
  (f.type = 1 ∧ f.start1 = 0xE5) ∨
  (f.type = 2 ∧ f.start1 = 0x10 ∧ f.stop = 0x16 ∧ f.control ∈ shortCodes ∧ f.checksum = f.control + f.address) ∨
  (f.type = 3 ∧ f.start1 = 0x68 ∧ f.start2 = 0x68 ∧ f.stop = 0x16 ∧ f.control ∈ dataCodes ∧
    f.length1 = 3 ∧ f.length2 = 3 ∧ f.checksum = byteSum [f.control, f.address, f.ci]) ∨
  (f.type = 4 ∧ f.start1 = 0x68 ∧ f.start2 = 0x68 ∧ f.stop = 0x16 ∧ f.control ∈ dataCodes ∧
    f.length1 = UInt8.ofNat (f.dataSize + 3) ∧ f.length2 = f.length1 ∧
    f.checksum = byteSum (f.control :: f.address :: f.ci :: f.data.bytes.take f.dataSize))

instance (f : Frame) : Decidable (WellFormed f) := by unfold WellFormed; infer_instance

/-- The fixed start/stop bytes of a frame object are those of telegram `t` (what `mbus_frame_new` puts there). -/
def StartStop (f : Frame) : Telegram → Prop
  | .ack => f.start1 = 0xE5
  | .short _ _ => f.start1 = 0x10 ∧ f.stop = 0x16
  | .data _ _ _ _ => f.start1 = 0x68 ∧ f.start2 = 0x68 ∧ f.stop = 0x16

/-- telegrams a master sends -/
def MasterT : Telegram → Prop
  | .ack => False
  | .short _ _ => True
  | .data c _ _ _ => c &&& 0x40 ≠ 0

end Mbus.Spec
