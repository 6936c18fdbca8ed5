import Verif.Model.Bus
import Verif.Spec.Link
import Verif.Spec.Handle
import Verif.Spec.Address
import Verif.Spec.Transport
/-
Specification for C121: a program reads meter after meter over one handle; whose data does each call deliver?
-/
namespace Mbus.Spec

/-- A client program: `mbus_read_slave` for each primary address of the list in turn, each time into a zeroed reply frame.
The return codes and replies are kept in order. -/
def poll {σ : Type} (o : Ops σ) : σ → List Byte → C (List (Int × Frame) × σ)
  | s, [] => .ok ([], s)
  | s, a :: as => do
    let (r, f, s) ← readSlave o s (.primary a.toNat) Frame.zero
    let (l, s) ← poll o s as
    .ok ((r, f) :: l, s)

/-- Request (REQ_UD2, FCB 0) for class 2 data of station `a`, as on the wire. -/
def reqWire (a : Byte) : List Byte := (Telegram.short 0x5B a).wire

/-- The telegram is user data sent by the station with primary address `a`. -/
def SentBy (a : Byte) (t : Telegram) : Prop := t.Legal ∧ ∃ c ci p, t = .data c a ci p ∧ c &&& 0x40 = 0

/-- The meters on the bus: which telegram the station with an address has to send, if there is one. -/
def Population (meter : Byte → Option Telegram) : Prop := ∀ a t, meter a = some t → SentBy a t

/-- `bs` arrives, in chunks of any size. -/
def Arrives (bs : List Byte) (es : List Ev) : Prop := ∃ cs, Chunks cs ∧ cs.flatten = bs ∧ es = evs cs

/-- Every request is answered by the meter it is addressed to, before the library gives up waiting; absent meters are silent. -/
def Punctual (env : Env) (meter : Byte → Option Telegram) : Prop :=
  ∀ sent a, Arrives (match meter a with | some t => t.wire | none => []) (env.respond (sent ++ [reqWire a]))

/-- What a call of `mbus_read_slave` should return: 0 and the telegram, or -1 if there is none. -/
def Returns (x : Int × Frame) : Option Telegram → Prop
  | some t => x.1 = 0 ∧ Carries x.2 t
  | none => x.1 = -1

/-- The same client program with secondary addresses. -/
def pollSecondary {σ : Type} (o : Ops σ) : σ → List (List Byte) → C (List (Int × Frame) × σ)
  | s, [] => .ok ([], s)
  | s, m :: ms => do
    let (r, f, s) ← readSlave o s (.secondary m) Frame.zero
    let (l, s) ← pollSecondary o s ms
    .ok ((r, f) :: l, s)

/-- Every selection with an address of `ms` is acknowledged in time by the one meter it selects, and the request to the selected
station (FDh) is answered by that meter; if the address selects no meter, nobody answers. -/
def PunctualSelect (env : Env) (ms : List (List Byte)) (meter : List Byte → Option Telegram) : Prop :=
  ∀ m ∈ ms, ∀ sent,
    Arrives (match meter m with | some _ => [0xE5] | none => []) (env.respond (sent ++ [(selT m).wire])) ∧
    Arrives (match meter m with | some t => t.wire | none => []) (env.respond (sent ++ [(selT m).wire] ++ [reqWire 0xFD]))

end Mbus.Spec
