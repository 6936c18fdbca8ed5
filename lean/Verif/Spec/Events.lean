import Verif.Model.Events
import Verif.Spec.Transport
import Verif.Spec.Value
/-
Specification vocabulary for the event callbacks: what was transmitted, what arrived, what was reported.
-/
namespace Mbus.Spec

/-- the transmissions reported by the send callback, in order -/
def sendsOf (es : List Event) : List (List Byte) := es.filterMap fun | .send bs => some bs | .recv _ => none

/-- the receptions reported by the receive callback, in order -/
def recvsOf (es : List Event) : List (List Byte) := es.filterMap fun | .recv bs => some bs | .send _ => none

/-- Those of the byte strings `xs`, written one after the other on a descriptor that was given `before` already, that the operating system
took completely. -/
def takenBy (wret : List (List Byte) → Nat → Int) : (before xs : List (List Byte)) → List (List Byte)
  | _, [] => []
  | before, x :: xs => (if wret before x.length = x.length then [x] else []) ++ takenBy wret (before ++ [x]) xs

/-- everything the bus delivers in response to the transmissions `xs` after `before` -/
def arrivals (respond : List (List Byte) → List Ev) : (before xs : List (List Byte)) → List Ev
  | _, [] => []
  | before, x :: xs => respond (before ++ [x]) ++ arrivals respond (before ++ [x]) xs

/-- the bytes a script delivers -/
def evBytes : List Ev → List Byte
  | [] => []
  | .data bs :: es => bs ++ evBytes es
  | _ :: es => evBytes es

/-- no `read` fails -/
def NoErrors (es : List Ev) : Prop := ∀ e ∈ es, ∃ bs, e = .data bs

/-- a line of the trace: time, direction, number of bytes, the bytes in hexadecimal -/
def TraceLine (stamp : List Byte) (e : Event) (line : List Byte) : Prop :=
  ∃ word bytes n h, ((e = .send bytes ∧ word = cs! "SEND") ∨ (e = .recv bytes ∧ word = cs! "RECV")) ∧
    line = cs! "[" ++ stamp ++ cs! "] " ++ word ++ cs! " (" ++ n ++ cs! "):" ++ h ++ cs! "\n" ∧
    3 ≤ n.length ∧ readNat n = some bytes.length ∧ (∀ c ∈ h, c = 32 ∨ isXDigit c) ∧ HexText h bytes

end Mbus.Spec
