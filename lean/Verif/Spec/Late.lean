import Verif.Spec.Tools
import Verif.Spec.Poll
/-
Specification for C128: a bus on which every answer comes too late, after the library has gone on to the next transmissions.
-/
namespace Mbus.Spec

/-- On this bus the answer to a transmission arrives only after `d` further transmissions have been made (`d = 0`: in time), in chunks
of any size; `answer` is what the meters answer to the last of a sequence of transmissions. -/
def Delayed (d : Nat) (answer : List (List Byte) → List Byte) (env : Env) : Prop :=
  ∀ sent, Arrives (if d < sent.length then answer (sent.take (sent.length - d)) else []) (env.respond sent)

/-- Each of the addresses `addrs` belongs to one meter, which acknowledges pings; nobody answers pings of other addresses. -/
def AcksPings (addrs : List Byte) (answer : List (List Byte) → List Byte) : Prop :=
  ∀ h a, answer (h ++ [pingWire a]) = if a ∈ addrs then [0xE5] else []

/-- Silence, one acknowledge, or what several acknowledges at the same time look like. -/
def Acknowledges (bs : List Byte) : Prop := bs = [] ∨ Garbled bs ∨ ∃ rest, bs = 0xE5 :: rest ∧ (rest = [] ∨ Garbled rest)

/-- Silence, one telegram with data, or what several of them at the same time look like. -/
def Responds (bs : List Byte) : Prop := bs = [] ∨ Garbled bs ∨ ∃ a t, SentBy a t ∧ bs = t.wire

/-- Meters that acknowledge pings and selections and respond to requests of data, whoever and how many they are. -/
structure Regular (answer : List (List Byte) → List Byte) : Prop where
  ping : ∀ h a, Acknowledges (answer (h ++ [pingWire a]))
  selection : ∀ h sel, sel.length = 8 → Acknowledges (answer (h ++ [selectionWire sel]))
  request : ∀ h, Responds (answer (h ++ [requestWire]))

/-- The command by which the meter with address `a` takes the new address `n`, as on the wire. -/
def assignWire (a n : Byte) : List Byte := (Telegram.data 0x53 a 0x51 [0x01, 0x7A, n]).wire

end Mbus.Spec
