import Verif.Model.Bus
import Verif.Model.Calls
import Verif.Spec.Handle
/-
Specification for C126: how long a call can wait.
-/
namespace Mbus.Spec

/-- What arrived in answer to the transmissions `sent`: the number of bytes, plus one for each result of `read` in which they come. -/
def arrivedAll (env : Env) (sent : List (List Byte)) : Nat := ((List.range sent.length).map fun i => evWeight (env.respond (sent.take (i + 1)))).sum

/-- the calls of a program that receive without transmitting before -/
def bareReceives (cs : List Call) : Nat := (cs.filter fun c => match c with | .recv _ => true | .purge => true | _ => false).length

/-- nobody answers -/
def Dead (env : Env) : Prop := ∀ sent, env.respond sent = []

/-- the reads that a signal interrupts -/
def eintrs : List Ev → Nat
  | [] => 0
  | .eintr :: es => eintrs es + 1
  | _ :: es => eintrs es

/-- the waits of one receive on a silent line, by the purge option: two with `PURGE_S2M` -/
def silentWaits (purge : Int) : Nat := if purge = PURGE_S2M then 2 else 1

/-- The calls that wait once for each of their transmissions when nobody answers (with a fresh frame for the answer). -/
inductive Exchanges : Call → Prop
  | ping (a : Int) : Exchanges (.ping a true)
  | select (m : List Byte) : Exchanges (.select m)
  | probe (m : List Byte) : Exchanges (.probe m)
  | scan (p : Int) (m : List Byte) : Exchanges (.scan p m)
  | readSlave (a : Address) (f : Frame) : f.type = 0 → f.control = 0 → Exchanges (.readSlave a f)
  | sendrecv (a : Int) (f : Frame) (n : Int) : f.type = 0 → f.control = 0 → Exchanges (.sendrecv a f n)

/-- The reads of a call that finds `es` waiting, on an endless line: the call returns only if for some `n` it makes at most `n` reads
when the first `n` results of the line are there.  (Each read takes at most one, so it never learns whether there are more.) -/
def Settles (reads : List Ev → Option Nat) (line : Nat → Ev) : Prop :=
  ∃ n r, reads ((List.range n).map line) = some r ∧ r ≤ n

end Mbus.Spec
