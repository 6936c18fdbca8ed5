import Verif.Spec.Document
/-
What the XML functions do for every printable record, however long its texts are: texts are cut to the scratch array they are
escaped into, and the document goes into a buffer whose size is doubled before a record if fewer than 1024 bytes are left.
Only the lengths of the printed pieces decide whether the document is complete, cut, or written beyond the buffer.
-/
namespace Mbus.Spec
open Mbus

/-- The text `s` escaped into an array of `room` bytes: the next character is added as long as seven bytes are left (the longest
entity and the terminating zero). -/
def escapeInto : (room : Nat) → List Byte → List Byte
  | _, [] => []
  | room, c :: s => if room < 7 then [] else escape1 c ++ escapeInto (room - (escape1 c).length) s

/-- The buffer of a document: its size, the characters printed so far, and the number of characters that are left of them if
they did not fit at some point (with their terminating zero). -/
structure Room where
  size : Nat
  len : Nat
  cut : Option Nat
  deriving DecidableEq

/-- A piece of `n` characters is printed: outside the buffer (`none`) if more characters than the buffer has bytes were printed
before; otherwise what does not fit is dropped. -/
def Room.text (r : Room) (n : Nat) : Option Room :=
  if r.size < r.len then none
  else some { r with len := r.len + n, cut := r.cut <|> if r.len + n < r.size then none else some (r.size - 1) }

/-- Before a record the buffer is doubled if fewer than 1024 bytes are left. -/
def Room.double (r : Room) : Room := if r.len ≤ r.size ∧ r.size < r.len + 1024 then { r with size := 2 * r.size } else r

/-- Several pieces. -/
def Room.texts (r : Room) : List Nat → Option Room
  | [] => some r
  | n :: ns => (r.text n).bind fun r => r.texts ns

/-- Several records, each of several pieces. -/
def Room.records (r : Room) : List (List Nat) → Option Room
  | [] => some r
  | ns :: nss => (r.double.texts ns).bind fun r => r.records nss

/-- What happens to a document. -/
inductive XmlFate
  /-- bytes are written outside the buffer -/
  | outside
  /-- the text is complete -/
  | complete
  /-- only the first characters are returned -/
  | cut (n : Nat)
  deriving DecidableEq

/-- The fate of a document whose declaration, opening tag and slave information have `start` characters, followed by records
printed in pieces of the given lengths and by the closing tag of 12 characters. -/
def xmlFate (start : Nat) (nss : List (List Nat)) : XmlFate :=
  match (Room.mk 8192 start none).records nss with
  | none => .outside
  | some r =>
    match r.text 12 with
    | none => .outside
    | some r => match r.cut with | none => .complete | some n => .cut n

/-- `recordGroup` with the texts escaped into an array of 768 bytes. -/
def recordGroupCut (id : Nat) (frame : Option Nat) (r : Record) (unit : List Byte) (stamp : Option (List Byte)) : Group :=
  let difes := r.dife.bytes.take r.ndife
  { name := cs! "DataRecord"
    attrs := (cs! "id", dec id) :: (match frame with | some k => [(cs! "frame", dec k)] | none => [])
    leaves :=
      (cs! "Function", functionLabel r) ::
      (if Special r then []
       else
        (cs! "StorageNumber", dec (storageOf r.dif difes)) ::
        (if difes = [] then [] else [(cs! "Tariff", dec (tariffOf difes)), (cs! "Device", dec (deviceOf difes))]) ++
        [(cs! "Unit", escapeInto 768 unit)]) ++
      (cs! "Value", escapeInto 768 (upToNul (shown r))) ::
      (match stamp with | some t => [(cs! "Timestamp", t)] | none => []) }

/-- The data records of one telegram. -/
def recordGroupsCut (frame : Option Nat) : (start : Nat) → List Item → List Group
  | _, [] => []
  | id, (r, u, stamp) :: its => recordGroupCut id frame r u stamp :: recordGroupsCut frame (id + 1) its

/-- The data records of several telegrams. -/
def telegramGroupsCut : (start : Nat) → (frame : Nat) → List (List Item) → List Group
  | _, _, [] => []
  | id, k, its :: rest => recordGroupsCut (some k) id its ++ telegramGroupsCut (id + its.length) (k + 1) rest

/-- All records of a readout. -/
def readoutGroupsCut : List (List Item) → List Group
  | [its] => recordGroupsCut none 0 its
  | tss => telegramGroupsCut 0 0 tss

/-- The length of what precedes the records. -/
def startLength (slave : Group) : Nat := 56 + slave.render.length

/-- Each record is printed in one piece. -/
def whole (gs : List Group) : List (List Nat) := gs.map fun g => [g.render.length]

/-- What a call that makes the document `doc` does, given its fate; `done m` is its result when it returns the buffer `m`. -/
def Meets {α : Type} (x : C α) (done : List Byte → α) (doc : List Byte) : XmlFate → Prop
  | .outside => ∃ n i, x = .error (.oobWrite n i)
  | .complete => ∃ m, x = .ok (done m) ∧ doc ++ [0] <+: m
  | .cut n => ∃ m, x = .ok (done m) ∧ n < doc.length ∧ doc.take n ++ [0] <+: m

/-- A record that can be printed: the unit is the label `mbus_data_record_unit` gives, and the storage number fits an `int` (C33). -/
structure Writable (it : Item) : Prop where
  unit : recordUnit it.1 = .ok it.2.1
  storage : ¬ Special it.1 → StorageOk it.1

/-- A program that prints the text: it fails, prints all of it, or the beginning. -/
def PrintedAs {α : Type} (x : C α) (done : List Byte → α) (doc : List Byte) : XmlFate → Prop
  | .outside => ∃ n i, x = .error (.oobWrite n i)
  | .complete => x = .ok (done doc)
  | .cut n => n < doc.length ∧ x = .ok (done (doc.take n))

/-- The value of a normalised record. -/
def normTextCut (n : NRecord) : List Byte :=
  match n.value with
  | .num x => fmtF x
  | .str s _ => escapeInto 768 (upToNul s)

/-- `normGroup` with the texts escaped into an array of 768 bytes. -/
def normGroupCut (id : Nat) (n : Option NRecord) : Group :=
  { name := cs! "DataRecord"
    attrs := [(cs! "id", dec id)]
    leaves :=
      match n with
      | none => []
      | some n =>
        [(cs! "Function", escapeInto 768 n.function), (cs! "StorageNumber", fmtInt n.storage)] ++
        (if n.tariff ≥ 0 then [(cs! "Tariff", fmtInt n.tariff), (cs! "Device", fmtInt n.device)] else []) ++
        [(cs! "Unit", escapeInto 768 (n.unit.getD [])), (cs! "Quantity", escapeInto 768 (n.quantity.getD [])),
         (cs! "Value", normTextCut n)] }

/-- The groups of normalised records. -/
def normGroupsCut (start : Nat) (ns : List (Option NRecord)) : List Group := (ns.zipIdx start).map fun p => normGroupCut p.2 p.1

/-- The lengths of the lines of a group (normalised records are printed line by line). -/
def lineLengths (g : Group) : List Nat :=
  (cs! "    <" ++ g.name ++ g.attrs.flatMap attr ++ cs! ">\n").length :: g.leaves.map (fun l => (leaf l).length) ++
    [(cs! "    </" ++ g.name ++ cs! ">\n\n").length]

end Mbus.Spec
