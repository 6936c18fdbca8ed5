import Verif.Spec.Tools
import Verif.Spec.Command
/-
Specification of the state of a meter that survives the program (EN 13757-2 and -3): primary address, baud rate and whether it is
selected, and how the telegrams of a master change it; and of what the meters have heard when the program is killed.
-/
namespace Mbus.Spec

/-- a meter, as far as the telegrams of this library can change it -/
structure Slave where
  /-- primary address -/
  addr : Byte
  /-- secondary address: identification number (least significant byte first), manufacturer, version, medium -/
  sec : List Byte
  /-- selected by its secondary address -/
  selected : Bool
  /-- baud rate -/
  baud : Int
  deriving DecidableEq

/-- the meter obeys telegrams to address `a`: its own, the two broadcast addresses, and FD (which is no meter's own) if it is
selected -/
def Slave.Listens (m : Slave) (a : Byte) : Prop := if a = 0xFD then m.selected = true else a = m.addr ∨ a = 0xFE ∨ a = 0xFF

instance (m : Slave) (a : Byte) : Decidable (m.Listens a) := by unfold Slave.Listens; infer_instance

/-- the primary address that a data record in a command assigns: unsigned 8 bit, VIF "bus address" -/
def assigned : List Byte → Option Byte
  | [0x01, 0x7A, n] => some n
  | _ => none

/-- the baud rate that a CI field asks for -/
def asked (ci : Byte) : Option Int := (baudTable.find? fun q => q.2 = ci).map (·.1)

/-- what a telegram does to a meter: SND_NKE to FD ends the selection, SND_UD to FD with CI 52 selects; SND_UD with CI 51 assigns
the primary address, SND_UD with CI B8..BF the baud rate; nothing else changes the meter -/
def Slave.hear (m : Slave) : Telegram → Slave
  | .ack => m
  | .short c a => if c = 0x40 ∧ a = 0xFD then { m with selected := false } else m
  | .data c a ci p =>
    if c ≠ 0x53 ∧ c ≠ 0x73 then m
    else if a = 0xFD ∧ ci = 0x52 then { m with selected := selects p m.sec }
    else if ¬ m.Listens a then m
    else if ci = 0x51 then { m with addr := (assigned p).getD m.addr }
    else { m with baud := (asked ci).getD m.baud }

/-- ... what a sequence of telegrams does -/
def Slave.after (m : Slave) (ts : List Telegram) : Slave := ts.foldl Slave.hear m

/-- the telegram in a frame object, if it is a telegram -/
def telegramOf (f : Frame) : Option Telegram :=
  if f.type = 1 then some .ack
  else if f.type = 2 then some (.short f.control f.address)
  else if f.type = 3 then some (.data f.control f.address f.ci [])
  else if f.type = 4 then some (.data f.control f.address f.ci (f.data.bytes.take f.dataSize))
  else none

/-- The meters have heard exactly the telegrams `ts` of those whose transmission was started: all of them, except that a
transmission that reported failure may or may not have reached the meters. -/
inductive Heard : List Act → List Telegram → Prop
  | nil : Heard [] []
  | arrived (f : Frame) (c : Int) (t : Telegram) (l : List Act) (ts : List Telegram) : telegramOf f = some t → Heard l ts → Heard (.sent f c :: l) (t :: ts)
  | lost (f : Frame) (l : List Act) (ts : List Telegram) : Heard l ts → Heard (.sent f (-1) :: l) ts
  | quiet (a : Act) (l : List Act) (ts : List Telegram) : (∀ f c, a ≠ .sent f c) → Heard l ts → Heard (a :: l) ts

/-- the meter is the one, or one of those, that the user named: by the secondary address, or by the primary address (254 and 255
name every meter) -/
def Named (text : List Byte) (m : Slave) : Prop :=
  (AddressMask text ∧ selects (addressBytes text) m.sec = true) ∨
  (¬ AddressMask text ∧ (atoi text = m.addr.toNat ∨ atoi text = 254 ∨ atoi text = 255))

end Mbus.Spec
