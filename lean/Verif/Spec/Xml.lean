import Verif.Spec.Deliver
import Verif.Spec.Value
/-
Specification of the XML documents: which elements they contain, and what a well-formed document is.
Written as data (groups of leaf elements) with one rendering function; the code prints line by line.
-/
namespace Mbus.Spec

/-- A group of leaf elements: `<name attributes> leaves </name>`. -/
structure Group where
  name : List Byte
  attrs : List (List Byte × List Byte)
  leaves : List (List Byte × List Byte)
  deriving DecidableEq

/-- ` key="value"` -/
def attr (a : List Byte × List Byte) : List Byte := 32 :: a.1 ++ cs! "=\"" ++ a.2 ++ cs! "\""

/-- A leaf element on a line of its own, indented by eight spaces. -/
def leaf (l : List Byte × List Byte) : List Byte :=
  cs! "        <" ++ l.1 ++ cs! ">" ++ l.2 ++ cs! "</" ++ l.1 ++ cs! ">\n"

/-- A group, indented by four spaces and followed by an empty line. -/
def Group.render (g : Group) : List Byte :=
  cs! "    <" ++ g.name ++ g.attrs.flatMap attr ++ cs! ">\n" ++ g.leaves.flatMap leaf ++ cs! "    </" ++ g.name ++ cs! ">\n\n"

/-- A document with the given groups. -/
def document (gs : List Group) : List Byte :=
  cs! "<?xml version=\"1.0\" encoding=\"ISO-8859-1\"?>\n<MBusData>\n\n" ++ gs.flatMap Group.render ++ cs! "</MBusData>\n"

/-- Decimal numeral / hexadecimal numeral of a number (as `%d`, `%X` print it). -/
def dec (n : Nat) : List Byte := decDigits n
def hex (n : Nat) : List Byte := hexDigits n

/-- The three letters of a manufacturer number: five bits each, 1 = A. -/
def flagLetters (n : Nat) : List Byte :=
  [UInt8.ofNat (64 + n / 1024 % 32), UInt8.ofNat (64 + n / 32 % 32), UInt8.ofNat (64 + n % 32)]

/-- The slave information of a variable-data telegram; `product` and `medium` are the labels of the product and medium. -/
def slaveGroup (h : VarHeader) (product medium : List Byte) : Group :=
  { name := cs! "SlaveInformation"
    attrs := []
    leaves :=
      [(cs! "Id", hex (leNat h.idBcd.bytes)),
       (cs! "Manufacturer", flagLetters (leNat h.manufacturer.bytes)),
       (cs! "Version", dec h.version.toNat),
       (cs! "ProductName", escape product),
       (cs! "Medium", escape medium),
       (cs! "AccessNumber", dec h.accessNo.toNat),
       (cs! "Status", fmtHex2 h.status),
       (cs! "Signature", h.signature.bytes.reverse.flatMap fmtHex2)] }

/-- A data record: its running number, the telegram number if there are several telegrams, function, storage number, tariff and
device (if there are DIFEs), unit label, value, time stamp if there is one. -/
def recordGroup (id : Nat) (frame : Option Nat) (r : Record) (unit : List Byte) (stamp : Option (List Byte)) : Group :=
  let difes := r.dife.bytes.take r.ndife
  { name := cs! "DataRecord"
    attrs := (cs! "id", dec id) :: (match frame with | some k => [(cs! "frame", dec k)] | none => [])
    leaves :=
      (cs! "Function", functionLabel r) ::
      (if Special r then []
       else
        (cs! "StorageNumber", dec (storageOf r.dif difes)) ::
        (if difes = [] then [] else [(cs! "Tariff", dec (tariffOf difes)), (cs! "Device", dec (deviceOf difes))]) ++
        [(cs! "Unit", escape unit)]) ++
      (cs! "Value", escape (upToNul (shown r))) ::
      (match stamp with | some t => [(cs! "Timestamp", t)] | none => []) }

/-- A counter of the fixed data structure: packed decimal digits as they are, or a signed binary number. -/
def counterText (status : Byte) (v : List Byte) : List Byte :=
  if status.toNat < 128 then hex (leNat v) else fmtInt (leInt v)

/-- The two groups of a fixed-data telegram. -/
def fixedGroups (x : FixedData) (medium function unit1 unit2 : List Byte) : List Group :=
  [{ name := cs! "SlaveInformation"
     attrs := []
     leaves := [(cs! "Id", hex (leNat x.idBcd.bytes)), (cs! "Medium", escape medium), (cs! "AccessNumber", dec x.txCnt.toNat),
                (cs! "Status", fmtHex2 x.status)] },
   { name := cs! "DataRecord"
     attrs := [(cs! "id", cs! "0")]
     leaves := [(cs! "Function", escape function), (cs! "Unit", escape unit1),
                (cs! "Value", counterText x.status x.cnt1Val.bytes)] },
   { name := cs! "DataRecord"
     attrs := [(cs! "id", cs! "1")]
     leaves := [(cs! "Function", escape function), (cs! "Unit", escape unit2),
                (cs! "Value", counterText x.status x.cnt2Val.bytes)] }]

/-- The group of an application error. -/
def errorGroup (label : List Byte) : Group :=
  { name := cs! "SlaveInformation", attrs := [], leaves := [(cs! "Error", escape label)] }

/-! ### well-formedness -/

/-- A name: letters only. -/
def IsName (n : List Byte) : Prop := n ≠ [] ∧ ∀ c ∈ n, Letter c
instance (n : List Byte) : Decidable (IsName n) := by unfold IsName; infer_instance

/-- Character data: no markup, `&` only as one of the predefined entities, no control characters except line feed. -/
inductive CharData : List Byte → Prop
  | nil : CharData []
  | char {c : Byte} {t : List Byte} : c ≠ 60 → c ≠ 38 → (32 ≤ c.toNat ∨ c = 10) → CharData t → CharData (c :: t)
  | entity {e t : List Byte} : e ∈ [cs! "&amp;", cs! "&lt;", cs! "&gt;", cs! "&quot;"] → CharData t → CharData (e ++ t)

/-- Element content: character data and elements, properly nested; attribute values contain neither quotes nor markup. -/
inductive Content : List Byte → Prop
  | text {t : List Byte} : CharData t → Content t
  | elem {name body : List Byte} {attrs : List (List Byte × List Byte)} : IsName name →
      (∀ a ∈ attrs, IsName a.1 ∧ CharData a.2 ∧ (34 : Byte) ∉ a.2) → Content body →
      Content (cs! "<" ++ name ++ attrs.flatMap attr ++ cs! ">" ++ body ++ cs! "</" ++ name ++ cs! ">")
  | append {a b : List Byte} : Content a → Content b → Content (a ++ b)

/-- A document: XML declaration, one root element without attributes, line feed. -/
def WellFormedXml (doc : List Byte) : Prop :=
  ∃ root body, IsName root ∧ Content body ∧
    doc = cs! "<?xml version=\"1.0\" encoding=\"ISO-8859-1\"?>\n<" ++ root ++ cs! ">" ++ body ++ cs! "</" ++ root ++ cs! ">\n"

end Mbus.Spec

namespace Mbus.Spec

/-- A record with its unit label and the text of its time stamp. -/
abbrev Item := Record × List Byte × Option (List Byte)

/-- The data records of one telegram, numbered from `start`; `frame`: the telegram number, if there are several telegrams. -/
def recordGroups (frame : Option Nat) : (start : Nat) → List Item → List Group
  | _, [] => []
  | id, (r, u, stamp) :: its => recordGroup id frame r u stamp :: recordGroups frame (id + 1) its

/-- The data records of several telegrams: record numbers and telegram numbers run on. -/
def telegramGroups : (start : Nat) → (frame : Nat) → List (List Item) → List Group
  | _, _, [] => []
  | id, k, its :: rest => recordGroups (some k) id its ++ telegramGroups (id + its.length) (k + 1) rest

/-- All records of a readout: with telegram numbers iff there is more than one telegram. -/
def readoutGroups : List (List Item) → List Group
  | [its] => recordGroups none 0 its
  | tss => telegramGroups 0 0 tss

/-- Texts without characters that need escaping. -/
def Plain (s : List Byte) : Prop := ∀ c ∈ s, c ≠ 38 ∧ c ≠ 60 ∧ c ≠ 62 ∧ c ≠ 34
instance (s : List Byte) : Decidable (Plain s) := by unfold Plain; infer_instance

/-- The text of a time stamp: at most 20 characters, what `strftime` with a limit of 21 bytes can leave. -/
def StampOk (stamp : Option (List Byte)) : Prop := ∀ t, stamp = some t → (0 : Byte) ∉ t ∧ t.length ≤ 20

/-- The escaped unit and value are not too long together (manufacturer specific data never are). -/
def Modest (r : Record) (u : List Byte) : Prop := Special r ∨ (escape u).length + (escape (upToNul (shown r))).length ≤ 671
instance (r : Record) (u : List Byte) : Decidable (Modest r u) := by unfold Modest; infer_instance

/-- The text shown for the value of a normalised record: a number with six decimals, or the text, escaped. -/
def normText (n : NRecord) : List Byte :=
  match n.value with
  | .num x => fmtF x
  | .str s _ => escape (upToNul s)

/-- A normalised record; nothing but the number for a record that could not be normalised. -/
def normGroup (id : Nat) (n : Option NRecord) : Group :=
  { name := cs! "DataRecord"
    attrs := [(cs! "id", dec id)]
    leaves :=
      match n with
      | none => []
      | some n =>
        [(cs! "Function", escape n.function), (cs! "StorageNumber", fmtInt n.storage)] ++
        (if n.tariff ≥ 0 then [(cs! "Tariff", fmtInt n.tariff), (cs! "Device", fmtInt n.device)] else []) ++
        [(cs! "Unit", escape (n.unit.getD [])), (cs! "Quantity", escape (n.quantity.getD [])), (cs! "Value", normText n)] }

/-- The texts of a normalised record are not too long together (records without tariff may be a little longer). -/
def Terse (n : NRecord) : Prop :=
  (escape (n.unit.getD [])).length + (escape (n.quantity.getD [])).length + (normText n).length ≤ if n.tariff ≥ 0 then 671 else 745

end Mbus.Spec
