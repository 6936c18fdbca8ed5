import Verif.Spec.Date
import Verif.Model.Value
/-
Specification of what a variable-data record means (EN 13757-3, table "coding of the data field") and of the texts a user
sees.  Only the record's bytes are used, none of the code's decoding loops.
-/
namespace Mbus.Spec

/-- The meaning of a record. -/
inductive Meaning where
  /-- no data -/
  | empty
  /-- two's complement integer -/
  | int (v : Int)
  /-- binary32 real -/
  | real (x : Flt)
  /-- calendar date (type G) -/
  | date (t : Tm)
  /-- date and time (types F and I) -/
  | dateTime (t : Tm)
  /-- packed decimal, least significant byte first -/
  | bcd (digits : List Byte)
  /-- characters in reading order -/
  | text (chars : List Byte)
  /-- uninterpreted bytes, most significant first -/
  | raw (bytes : List Byte)
  /-- selection for readout: carries no value in a response -/
  | selection

/-- The record holds a calendar date: 2 bytes, VIF "time point (date)". -/
def IsDate (r : Record) : Prop := r.dif.toNat % 16 = 2 ∧ r.vif.toNat % 128 = 0x6C
/-- The record holds date and time: 4 or 6 bytes, VIF "time point (date/time)", or the FD-table VIFEs "start of tariff"
and "date and time of battery change". -/
def IsDateTime (r : Record) : Prop :=
  (r.dif.toNat % 16 = 4 ∨ r.dif.toNat % 16 = 6) ∧
  (r.vif.toNat % 128 = 0x6D ∨
    (r.vif = 0xFD ∧ ((r.vife.bytes.headD 0).toNat % 128 = 0x30 ∨ (r.vife.bytes.headD 0).toNat % 128 = 0x70)))

instance (r : Record) : Decidable (IsDate r) := by unfold IsDate; infer_instance
instance (r : Record) : Decidable (IsDateTime r) := by unfold IsDateTime; infer_instance

/-- Meaning of a record from its DIF data field, VIB and data. -/
def meaning (r : Record) : Meaning :=
  let first (n : Nat) := r.data.bytes.take n
  let lvar := r.data.bytes.headD 0
  match r.dif.toNat % 16 with
  | 0 => .empty
  | 1 => .int (leInt (first 1))
  | 2 => if IsDate r then .date (dateG (leNat (first 2))) else .int (leInt (first 2))
  | 3 => .int (leInt (first 3))
  | 4 => if IsDateTime r then .dateTime (dateF (leNat (first 4))) else .int (leInt (first 4))
  | 5 => .real (ieee32 (leNat (first 4)))
  | 6 => if IsDateTime r then .dateTime (dateI (leNat (first 6))) else .int (leInt (first 6))
  | 7 => .int (leInt (first 8))
  | 9 => .bcd (first 1)
  | 10 => .bcd (first 2)
  | 11 => .bcd (first 3)
  | 12 => .bcd (first 4)
  | 13 => if lvar.toNat ≤ 0xBF then .text ((first r.dataLen).drop 1).reverse else .raw ((first r.dataLen).drop 1).reverse
  | 14 => .bcd (first 6)
  | 15 => .raw (first r.dataLen).reverse
  | _ => .selection

/-- Two / four decimal digits. -/
def dec2 (n : Nat) : List Byte := [UInt8.ofNat (48 + n / 10 % 10), UInt8.ofNat (48 + n % 10)]
def dec4 (n : Nat) : List Byte := dec2 (n / 100) ++ dec2 n

/-- "YYYY-MM-DD" -/
def dateText (t : Tm) : List Byte :=
  dec4 (t.year + 1900).toNat ++ cs! "-" ++ dec2 (t.mon + 1).toNat ++ cs! "-" ++ dec2 t.mday.toNat
/-- "YYYY-MM-DDThh:mm:ss" -/
def dateTimeText (t : Tm) : List Byte :=
  dateText t ++ cs! "T" ++ dec2 t.hour.toNat ++ cs! ":" ++ dec2 t.min.toNat ++ cs! ":" ++ dec2 t.sec.toNat

/-- Value of a decimal numeral with optional minus sign. -/
def readNat : List Byte → Option Nat :=
  fun l => if l = [] then none else
    l.foldl (fun a c => a.bind fun v => if 48 ≤ c.toNat ∧ c.toNat ≤ 57 then some (v * 10 + (c.toNat - 48)) else none) (some 0)
def readInt : List Byte → Option Int
  | 45 :: l => (readNat l).map fun n : Nat => -(n : Int)
  | l => (readNat l).map fun n : Nat => (n : Int)

/-- Signed value of a packed decimal: a most significant digit F means negative, other non-decimal digits in the upper
half of a byte count as 0. -/
def bcdValue (l : List Byte) : Int :=
  let digit (d : Nat) := if d < 10 then d else 0
  let mag := l.foldr (fun b v => b.toNat % 16 + 10 * digit (b.toNat / 16) + 100 * v) 0
  if (l.getLastD 0).toNat / 16 = 15 then -(mag : Int) else mag

/-- The text a C program sees in a buffer: up to the first NUL. -/
def upToNul (l : List Byte) : List Byte := l.takeWhile (· ≠ 0)

end Mbus.Spec

namespace Mbus.Spec

/-- The function field of the DIF says "value during error state". -/
def ErrorState (r : Record) : Prop := r.dif.toNat / 16 % 4 = 3
instance (r : Record) : Decidable (ErrorState r) := by unfold ErrorState; infer_instance

/-- The text shown for a record. -/
def shown (r : Record) : List Byte :=
  match meaning r with
  | .empty => []
  | .int v => fmtInt v
  | .real x => fmtF x
  | .date t => dateText t
  | .dateTime t => dateTimeText t
  | .bcd ds => if ErrorState r then hexDigits (leNat ds) else fmtInt (bcdValue ds)
  | .text s => s
  | .raw bs => hexDump bs
  | .selection => cs! "Unknown DIF (0x" ++ fmtHex2L r.dif ++ cs! ")"

/-- What the normalising decoder must deliver for a meaning: a number for integers, reals and packed decimals, a
NUL-terminated text otherwise (dates with a trailing Z), an error for "selection for readout". -/
def Decoded (o : ValOut) : Meaning → Prop
  | .empty => o.code = 0 ∧ o.str = some [0]
  | .int v => o.code = 0 ∧ o.str = none ∧ o.real = Flt.lit (v : Rat)
  | .real x => o.code = 0 ∧ o.str = none ∧ o.real = x
  | .bcd ds => o.code = 0 ∧ o.str = none ∧ o.real = Flt.lit ((bcdValue ds : Int) : Rat)
  | .date t => o.code = 0 ∧ o.str = some (dateText t ++ [0])
  | .dateTime t => o.code = 0 ∧ o.str = some (dateTimeText t ++ cs! "Z" ++ [0])
  | .text s => o.code = 0 ∧ o.str = some (s ++ [0])
  | .raw bs => o.code = 0 ∧ ∃ m, o.str = some m ∧ hexDump bs ++ [0] <+: m ∧ m.length = 3 * bs.length + 1
  | .selection => o.code = -2 ∧ o.str = none

end Mbus.Spec

namespace Mbus.Spec

/-- The number a record carries (before scaling), if it carries one. -/
def Meaning.number : Meaning → Option Flt
  | .int v => some (Flt.lit (v : Rat))
  | .real x => some x
  | .bcd ds => some (Flt.lit ((bcdValue ds : Int) : Rat))
  | _ => none

/-- The text a record carries, if it carries one (time points with a trailing Z). -/
def Meaning.words : Meaning → Option (List Byte)
  | .empty => some []
  | .date t => some (dateText t)
  | .dateTime t => some (dateTimeText t ++ cs! "Z")
  | .text s => some (upToNul s)
  | .raw bs => some (hexDump bs)
  | _ => none

/-- DIF 0x0F / 0x1F: the record is a block of manufacturer specific data. -/
def Special (r : Record) : Prop := r.dif = 0x0F ∨ r.dif = 0x1F
instance (r : Record) : Decidable (Special r) := by unfold Special; infer_instance

/-- The two primary VIFs without assigned meaning. -/
def UnknownUnit (r : Record) : Prop := r.vif = 0x7B ∨ r.vif = 0x7D
instance (r : Record) : Decidable (UnknownUnit r) := by unfold UnknownUnit; infer_instance

/-- The function label of a record (EN 1434-3: bits 4-5 of the DIF). -/
def functionLabel (r : Record) : List Byte :=
  if r.dif = 0x0F then cs! "Manufacturer specific"
  else if r.dif = 0x1F then cs! "More records follow"
  else [cs! "Instantaneous value", cs! "Maximum value", cs! "Minimum value", cs! "Value during error state"].getD
    (r.dif.toNat / 16 % 4) []

end Mbus.Spec
