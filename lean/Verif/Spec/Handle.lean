import Verif.Model.Bus
import Verif.Model.Trace
import Verif.Spec.Link
import Verif.Spec.Address
import Verif.Spec.Select
import Verif.Spec.Session
import Verif.Spec.Scan
/-
The words the statements about handles, buses and scans use.
-/
namespace Mbus
open Spec

/-- the handle is open: always a socket, a serial line only if the descriptor is a terminal -/
def IsOpen (k : Kind) (env : Env) : Prop := k = .tcp ∨ env.tty = true

/-- writes succeed completely -/
def Writable (env : Env) : Prop := ∀ sent n, env.wret sent n = (n : Int)

/-- telegrams a slave sends -/
def FromSlave : Telegram → Prop
  | .ack => True
  | .short _ _ => False
  | .data c _ _ _ => c &&& 0x40 = 0

/-- a bus where the `n`-th transmission is answered by the telegram `reply n` (the first one has number 1) -/
def replyEnv (reply : Nat → Telegram) : Env where
  respond sent := [.data (reply sent.length).wire]
  junk _ := 0
  wret _ n := n
  tty := true

/-- the bus `env` after the transmissions `pre` -/
def Env.after (env : Env) (pre : List (List Byte)) : Env :=
  { env with respond := fun s => env.respond (pre ++ s), wret := fun s n => env.wret (pre ++ s) n }

/-- the nibble `mbus_frame_select_secondary_pack` uses for an identification digit -/
def idNibble (c : Byte) : Nat := if c = 70 ∨ c = 102 then 15 else (c.toNat - 48) % 16

/-- the payload of the selection frame -/
def selBytes : List Byte → List Byte
  | [c0, c1, c2, c3, c4, c5, c6, c7, c8, c9, c10, c11, c12, c13, c14, c15] =>
    [UInt8.ofNat (16 * idNibble c6 + idNibble c7), UInt8.ofNat (16 * idNibble c4 + idNibble c5),
     UInt8.ofNat (16 * idNibble c2 + idNibble c3), UInt8.ofNat (16 * idNibble c0 + idNibble c1),
     UInt8.ofNat (16 * digitVal c8 + digitVal c9), UInt8.ofNat (16 * digitVal c10 + digitVal c11),
     UInt8.ofNat (16 * digitVal c12 + digitVal c13), UInt8.ofNat (16 * digitVal c14 + digitVal c15)]
  | _ => []

/-- the selection telegram for a mask -/
def selT (mask : List Byte) : Telegram := .data 0x73 0xFD 0x52 (selBytes mask)

/-- forget the log -/
def unlog {σ : Type} : C (SrOut (σ × List Act)) → C (SrOut σ)
  | .error e => .error e
  | .ok out => .ok ⟨out.code, out.chain, out.recs, out.state.1⟩

/-- the call failed (its result is not 0) and nothing happened on the bus -/
def FailedQuietly (b : Bus) (res : C (Int × Bus)) : Prop := ∃ r, res = .ok (r, b) ∧ r ≠ 0

/-- the handle's options after a sequence of `mbus_context_set_option` calls -/
def setOptions (st : Settings) : List (Int × Int) → Settings
  | [] => st
  | (o, v) :: cs => setOptions (setOption st o v).2 cs

/-- what must have happened before the request: nothing for a primary address, a selection with outcome SINGLE for a secondary
one -/
def Prepared : Address → List Act → Prop
  | .primary a, l => l = [] ∧ 0 ≤ a ∧ a ≤ 255
  | .secondary t, l => Selection t 1 l

/-- the address the request goes to -/
def target : Address → Byte
  | .primary a => UInt8.ofNat a.toNat
  | .secondary _ => 0xFD

/-- the bus and the handle a scan is started on: an open handle (that does not throw away the telegrams of meters), writes that
succeed, meters with readable responses, decimal and pairwise different identification numbers, faithful answers -/
structure Scannable (k : Kind) (env : Env) (purge : Int) (st : Settings) (devs : List Device) : Prop where
  opened : IsOpen k env
  writable : Writable env
  keeps : purge ≠ PURGE_S2M
  retries : 0 ≤ st.maxSearchRetry
  faithful : Faithful devs env
  readable : ∀ d ∈ devs, d.Readable
  decimal : ∀ d ∈ devs, d.Decimal
  distinct : devs.Pairwise (fun d e => d.p.take 4 ≠ e.p.take 4)

/-- sixteen wildcards -/
def allWild : List Byte := List.replicate 16 70

end Mbus
