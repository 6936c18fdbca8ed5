import Verif.Model.Bus
import Verif.Model.Trace
import Verif.Spec.Transport
import Verif.Spec.Link
import Verif.Spec.Records
import Verif.Spec.Address
/-
Specification of a bus with several meters that can be selected by their secondary address (EN 13757-3): a selection carries
identification number (digits, F is a wildcard), manufacturer, version and medium (bytes, FF is a wildcard); the matching meters
answer it with an acknowledge and then answer the request to address FD.  Simultaneous answers arrive garbled.
-/
namespace Mbus.Spec

/-- a meter: what it answers to a request (control code, primary address, payload of a variable data response) -/
structure Device where
  c : Byte
  a : Byte
  p : List Byte
  deriving DecidableEq

/-- the response of the meter -/
def Device.telegram (d : Device) : Telegram := .data d.c d.a 0x72 d.p
/-- its address: identification number (least significant byte first), manufacturer, version, medium -/
def Device.address (d : Device) : List Byte := d.p.take 8

/-- one byte of the identification number: two digits -/
def digitsMatch (sel id : Byte) : Bool :=
  (sel.toNat / 16 = 15 || sel.toNat / 16 = id.toNat / 16) && (sel.toNat % 16 = 15 || sel.toNat % 16 = id.toNat % 16)

/-- one byte of manufacturer, version or medium -/
def byteMatch (sel id : Byte) : Bool := sel = 0xFF || sel = id

/-- the meter with address bytes `id` is selected by the selection bytes `sel` -/
def selects (sel id : List Byte) : Bool :=
  ((sel.take 4).zip (id.take 4)).all (fun q => digitsMatch q.1 q.2) && ((sel.drop 4).zip (id.drop 4)).all (fun q => byteMatch q.1 q.2)

/-- no telegram starts with this byte -/
def NoStart (b : Byte) : Prop := b ≠ 0xE5 ∧ b ≠ 0x10 ∧ b ≠ 0x68

/-- several responses at the same time, as far as they can be told from one response: something that does not even start like
a telegram, two different (or too small) length bytes, or as many bytes as the length bytes promise that are not a telegram
(the direction bit of the control byte still says "from a meter") -/
inductive Garbled : List Byte → Prop
  | start (b : Byte) (rest : List Byte) : NoStart b → Garbled (b :: rest)
  | lengths (l1 l2 : Byte) (rest : List Byte) : l1.toNat < 3 ∨ l1 ≠ l2 → Garbled (0x68 :: l1 :: l2 :: rest)
  | content (l s c : Byte) (body rest : List Byte) : 3 ≤ l.toNat → body.length = l.toNat + 1 → c &&& 0x40 = 0 →
      (∀ t : Telegram, t.Legal → t.wire ≠ 0x68 :: l :: l :: s :: c :: body) → Garbled (0x68 :: l :: l :: s :: c :: body ++ rest)

/-- what is written to the bus to select by `sel` -/
def selectionWire (sel : List Byte) : List Byte := (Telegram.data 0x73 0xFD 0x52 sel).wire
/-- what is written to the bus to request data from the selected meter -/
def requestWire : List Byte := (Telegram.short 0x5B 0xFD).wire

/-- The bus with the meters `devs` answers faithfully (in chunks of any size): a selection with silence, an acknowledge or, if
more than one meter is selected, with something that starts with an acknowledge or is garbled; and the request that follows with
silence, the response of the selected meter, or garbled. -/
structure Faithful (devs : List Device) (env : Env) : Prop where
  selection : ∀ sent sel, sel.length = 8 → ∃ cs, Chunks cs ∧ env.respond (sent ++ [selectionWire sel]) = evs cs ∧
    match devs.filter (fun d => selects sel d.address) with
    | [] => cs.flatten = []
    | [_] => cs.flatten = [0xE5]
    | _ => (∃ rest, cs.flatten = 0xE5 :: rest) ∨ Garbled cs.flatten
  request : ∀ sent sel, sel.length = 8 → ∃ cs, Chunks cs ∧ env.respond (sent ++ [selectionWire sel] ++ [requestWire]) = evs cs ∧
    match devs.filter (fun d => selects sel d.address) with
    | [] => cs.flatten = []
    | [d] => cs.flatten = d.telegram.wire
    | _ => Garbled cs.flatten

/-- a meter whose response the record structures can hold -/
def Device.Readable (d : Device) : Prop :=
  d.c ∈ [0x08, 0x18, 0x28, 0x38] ∧ 12 ≤ d.p.length ∧ d.p.length ≤ 252 ∧ ∃ rs, Tiles (d.p.drop 12) rs

/-- its identification number consists of decimal digits -/
def Device.Decimal (d : Device) : Prop := ∀ b ∈ d.p.take 4, b.toNat / 16 ≤ 9 ∧ b.toNat % 16 ≤ 9

/-- mask characters -/
def IsWild (c : Byte) : Prop := c = 70 ∨ c = 102
def IsDec (c : Byte) : Prop := 48 ≤ c.toNat ∧ c.toNat ≤ 57

instance (c : Byte) : Decidable (IsWild c) := by unfold IsWild; infer_instance
instance (c : Byte) : Decidable (IsDec c) := by unfold IsDec; infer_instance

/-- a mask on the identification number: decimal digits and wildcards, then only wildcards -/
structure IdMask (m : List Byte) : Prop where
  length : m.length = 16
  id : ∀ i, i < 8 → IsDec (m.getD i 0) ∨ IsWild (m.getD i 0)
  rest : ∀ i, 8 ≤ i → i < 16 → IsWild (m.getD i 0)

/-- the report says: this device -/
def Reports (x : List Byte × Frame) (d : Device) : Prop := x.1 = addressText d.address ∧ Carries x.2 d.telegram

/-- the devices reported in a log -/
def foundOf (log : List Act) : List (List Byte × Frame) :=
  log.filterMap fun a => match a with
    | .found addr f => some (addr, f)
    | _ => none

/-! which masks a scan probes -/

def isProgress : Act → Bool
  | .progress _ => true
  | _ => false

/-- the probes of a scan: the announced masks, each with what happened until the next one was announced -/
def visits : List Act → List (List Byte × List Act)
  | [] => []
  | .progress m :: l => (m, l.takeWhile (fun a => !isProgress a)) :: visits l
  | _ :: l => visits l

/-- no wildcard at `pos` or later -/
def Fixed (pos : Nat) (m : List Byte) : Prop := ∀ i, pos ≤ i → i < 16 → ¬ IsWild (m.getD i 0)

/-- `q` is the first wildcard of `m` at `pos` or later -/
def FirstWild (pos : Nat) (m : List Byte) (q : Nat) : Prop :=
  pos ≤ q ∧ q < 16 ∧ IsWild (m.getD q 0) ∧ ∀ i, pos ≤ i → i < q → ¬ IsWild (m.getD i 0)

/-- `m'` restricts `m`: its first wildcard (at `pos` or later) is replaced by a decimal digit; a mask without wildcards can only
be repeated -/
def Restricts (pos : Nat) (m m' : List Byte) : Prop :=
  (∃ q d, FirstWild pos m q ∧ IsDec d ∧ m' = m.set q d) ∨ (Fixed pos m ∧ m' = m)

/-- `m'` is `m` with some wildcards (at `pos` or later) replaced by decimal digits -/
def Refines (pos : Nat) (m m' : List Byte) : Prop :=
  m'.length = 16 ∧ ∀ i, i < 16 → m'.getD i 0 = m.getD i 0 ∨ (pos ≤ i ∧ IsWild (m.getD i 0) ∧ IsDec (m'.getD i 0))

/-- the meters a mask selects -/
def chosen (devs : List Device) (m : List Byte) : List Device := devs.filter fun d => selects (addressBytes m) d.address

/-- The masks that are asked for below `m`: the masks that restrict it in one digit and, below those of them that select several
meters, again. -/
inductive Tried (devs : List Device) (pos : Nat) : List Byte → List Byte → Prop
  | here {m m' : List Byte} : Restricts pos m m' → Tried devs pos m m'
  | inside {m m1 m' : List Byte} : Restricts pos m m1 → 2 ≤ (chosen devs m1).length → Tried devs pos m1 m' → Tried devs pos m m'

/-- the meter is the only one that some mask asked for below `m` selects -/
def Isolated (devs : List Device) (pos : Nat) (m : List Byte) (d : Device) : Prop := ∃ m', Tried devs pos m m' ∧ chosen devs m' = [d]

end Mbus.Spec
