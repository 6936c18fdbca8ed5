import Verif.Spec.Document
/-
What an XML document shows of a readout: two readouts that agree on all of this are indistinguishable to a reader of the document.
-/
namespace Mbus.Spec

/-- The same text, except that control characters are not told apart from blanks. -/
def SameText (a b : List Byte) : Prop := a.map blank = b.map blank
instance (a b : List Byte) : Decidable (SameText a b) := by unfold SameText; infer_instance

/-- Two headers with the same identification number, manufacturer letters (the lower 15 bits of the manufacturer number), version, access
number, status and signature, and the same names of product and medium. -/
structure SameHeader (h k : VarHeader) (product product' medium medium' : List Byte) : Prop where
  id : h.idBcd.bytes = k.idBcd.bytes
  maker : leNat h.manufacturer.bytes % 32768 = leNat k.manufacturer.bytes % 32768
  version : h.version = k.version
  accessNo : h.accessNo = k.accessNo
  status : h.status = k.status
  signature : h.signature.bytes = k.signature.bytes
  product : SameText product product'
  medium : SameText medium medium'

/-- Two records that show the same function, value and time stamp and, unless they are manufacturer specific data, the same storage number,
tariff, device and unit label (and both or neither have extension bytes with tariff and device). -/
structure SameShown (a b : Item) : Prop where
  function : functionLabel a.1 = functionLabel b.1
  special : Special a.1 ↔ Special b.1
  storage : ¬ Special a.1 → storageOf a.1.dif (a.1.dife.bytes.take a.1.ndife) = storageOf b.1.dif (b.1.dife.bytes.take b.1.ndife)
  extended : ¬ Special a.1 → (a.1.dife.bytes.take a.1.ndife = [] ↔ b.1.dife.bytes.take b.1.ndife = [])
  tariff : ¬ Special a.1 → tariffOf (a.1.dife.bytes.take a.1.ndife) = tariffOf (b.1.dife.bytes.take b.1.ndife)
  device : ¬ Special a.1 → deviceOf (a.1.dife.bytes.take a.1.ndife) = deviceOf (b.1.dife.bytes.take b.1.ndife)
  unit : ¬ Special a.1 → SameText a.2.1 b.2.1
  value : SameText (upToNul (shown a.1)) (upToNul (shown b.1))
  stamp : a.2.2 = b.2.2

/-- Two fixed data structures with the same identification number, counters, status and access number, and the same names of the medium and
of the units of both counters. -/
structure SameFixed (x y : FixedData) (medium medium' unit1 unit1' unit2 unit2' : List Byte) : Prop where
  id : x.idBcd.bytes = y.idBcd.bytes
  count : x.txCnt = y.txCnt
  status : x.status = y.status
  counter1 : x.cnt1Val.bytes = y.cnt1Val.bytes
  counter2 : x.cnt2Val.bytes = y.cnt2Val.bytes
  medium : SameText medium medium'
  unit1 : SameText unit1 unit1'
  unit2 : SameText unit2 unit2'

/-- Two normalised records that show the same: function, storage number, unit, quantity and value (numbers: as printed with six decimals),
and tariff and device if there is a tariff. -/
structure SameNorm (a b : NRecord) : Prop where
  function : SameText a.function b.function
  storage : a.storage = b.storage
  extended : 0 ≤ a.tariff ↔ 0 ≤ b.tariff
  tariff : 0 ≤ a.tariff → a.tariff = b.tariff ∧ a.device = b.device
  unit : SameText (a.unit.getD []) (b.unit.getD [])
  quantity : SameText (a.quantity.getD []) (b.quantity.getD [])
  value : normText a = normText b

/-- ... both of them normalised, or neither. -/
def BothNorm : Option NRecord → Option NRecord → Prop
  | none, none => True
  | some a, some b => SameNorm a b
  | _, _ => False

/-- The records of a readout in order, each with the number of its telegram if there are several telegrams. -/
def tagged (tss : List (List Item)) : List (Option Nat × Item) :=
  (numbered tss).map fun p => (if tss.length = 1 then none else some p.1, p.2)

end Mbus.Spec
