import Verif.Model.Xml
import Verif.Spec.Link
import Verif.Spec.Xml
import Verif.Spec.Delivered
/-
The words the statements about the XML documents use.
-/
namespace Mbus
open Spec

/-- Parsing the telegram on its own gives the header `h` and the records `rs`. -/
def Reads (f : Frame) (h : VarHeader) (rs : List Record) : Prop :=
  f.dataSize ≤ 252 ∧ ∃ x, frameDataParse f FrameData.new = .ok (0, x) ∧ x.type = DATA_VARIABLE ∧ x.var.header = h ∧ x.var.records = rs

/-- The telegram `t` reads as the items `its`. -/
def ItemsOf (t : Telegram) (its : List Item) : Prop :=
  (∃ h, Reads t.1 h (its.map (·.1))) ∧ ∀ it ∈ its, it.2.2 = t.2

/-- Number of records of several telegrams. -/
def total (tss : List (List Item)) : Nat := (tss.map List.length).sum

/-- A record whose unit label, storage number and texts can be printed: the unit is the label `mbus_data_record_unit` gives, the
storage number fits an `int` (see C33), and the escaped unit and value are not too long together. -/
structure Showable (it : Item) : Prop where
  unit : recordUnit it.1 = .ok it.2.1
  storage : ¬ Special it.1 → StorageOk it.1
  modest : Modest it.1 it.2.1

/-- Every record of a readout with the number of its telegram, in order. -/
def numbered (tss : List (List Item)) : List (Nat × Item) := tss.zipIdx.flatMap fun p => p.1.map fun it => (p.2, it)

/-- The group of record number `i`: with a frame attribute iff there is more than one telegram. -/
def numberedGroup (several : Bool) (p : (Nat × Item) × Nat) : Group :=
  recordGroup p.2 (if several then some p.1.1 else none) p.1.2.1 p.1.2.2.1 p.1.2.2.2

/-- The telegram `t` has the records `its`, all with the same text of a time stamp. -/
def TelegramReads (t : Spec.Telegram) (stamp : Option (List Byte)) (its : List Item) : Prop :=
  ∃ c a p rs, t = .data c a 0x72 p ∧ Tiles (p.drop 12) rs ∧ its.map (·.1) = rs.map mkRec ∧ ∀ it ∈ its, it.2.2 = stamp

/-- what the tool is to print of telegram `t` -/
def TelegramItems (t : Spec.Telegram) (stamp : Option (List Byte)) (its : List Item) : Prop :=
  TelegramReads t stamp its ∧ ∀ it ∈ its, Showable it

/-- The text of the document: slave information, then one group per record; `ns` are the records as printed. -/
def normDocument (h : VarHeader) (p : List Byte) (ns : List (Option NRecord)) : List Byte :=
  document (slaveGroup h p (mediumLookup h.medium) :: ns.zipIdx.map fun q => normGroup q.2 q.1)

end Mbus
