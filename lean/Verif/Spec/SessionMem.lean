import Verif.Model.SessionMem
import Verif.Spec.Owned
/-
Specification vocabulary for C103-C105: what a call left on the heap.
-/
namespace Mbus.Spec

/-- A copy of an address mask: 16 characters and the terminator. -/
def MaskCopy (z : Nat × List Byte) : Prop := ∃ t : List Byte, t.length = 16 ∧ z.2 = t ++ [0]

/-- `m'` is `m` with exactly the additional blocks `as`; nothing of `m` was changed or released. -/
def Kept (m m' : Mem) (as : List Nat) : Prop := ∃ news, Grown m m' news ∧ (news.map (·.1)).Perm as

/-- The operating system refuses the next allocation. -/
def NextFails (m : Mem) : Prop := m.answers.head? = some false

/-- The commands that transmit one frame. -/
inductive Cmd where
  | request (address : Int)
  | ping (address : Int) (purge : Bool)
  | baudrate (address baud : Int)
  | reset (address subcode : Int)
  | userData (address : Int) (data : List Byte) (size : Nat)
  | setAddress (oldAddress newAddress : Int)
  | select (mask : List Byte)

/-- What the command does when memory is plentiful: return code and link state. -/
def Cmd.plain {σ : Type} (o : Ops σ) (s : σ) : Cmd → C (Int × σ)
  | .request a => sendRequest o s a
  | .ping a p => sendPing o s a p
  | .baudrate a b => sendBaud o s a b
  | .reset a c => sendAppReset o s a c
  | .userData a d n => sendUserData o s a d n
  | .setAddress a b => setPrimaryAddress o s a b
  | .select m => sendSelect o s m

/-- The command on the heap `m`. -/
def Cmd.run {σ : Type} (o : Ops σ) (s : σ) (m : Mem) : Cmd → C ((Int × σ) × Mem)
  | .request a => sendRequestOwned o s m a
  | .ping a p => sendPingOwned o s m a p
  | .baudrate a b => sendBaudOwned o s m a b
  | .reset a c => sendAppResetOwned o s m a c
  | .userData a d n => sendUserDataOwned o s m a d n
  | .setAddress a b => setPrimaryAddressOwned o s m a b
  | .select x => sendSelectOwned o s m x

end Mbus.Spec
