import Verif.Model.Record
import Verif.Spec.Records
/- What it means that the library's record structure describes a wire record.  (Shares only the structure types.) -/
namespace Mbus.Spec

/-- `m` (a record as the API hands it out) describes the wire record. -/
def Delivers (m : Record) : Rec → Prop
  | .special dif data =>
      m.dif = dif ∧ m.ndife = 0 ∧ m.nvife = 0 ∧ m.dataLen = data.length ∧ m.data.bytes.take m.dataLen = data
  | .value dif difes vif text vifes data =>
      m.dif = dif ∧ m.ndife = difes.length ∧ m.dife.bytes.take m.ndife = difes ∧
      m.vif = vif ∧ m.nvife = vifes.length ∧ m.vife.bytes.take m.nvife = vifes ∧
      (PlainText vif → (text.reverse ++ [0]) <+: m.customVif.bytes) ∧
      m.dataLen = data.length ∧ m.data.bytes.take m.dataLen = data

instance (m : Record) (r : Rec) : Decidable (Delivers m r) := by
  cases r <;> unfold Delivers <;> infer_instance

/-- Two lists of the same length related element by element. -/
inductive Pointwise {α β : Type} (R : α → β → Prop) : List α → List β → Prop
  | nil : Pointwise R [] []
  | cons {a : α} {b : β} {as : List α} {bs : List β} : R a b → Pointwise R as bs → Pointwise R (a :: as) (b :: bs)

/-- The fields of the 12-byte fixed header. -/
def HeaderIs (h : VarHeader) (p : List Byte) : Prop :=
  h.idBcd.bytes ++ h.manufacturer.bytes ++ [h.version, h.medium, h.accessNo, h.status] ++ h.signature.bytes = p.take 12

/-- The application payload of a frame: its first `data_size` data bytes. -/
def payload (f : Frame) : List Byte := f.data.bytes.take f.dataSize

/-- The bits of storage number / tariff / device, least significant part first (EN 1434-3: DIF bit 6 and DIFE bits 0-3,
4-5, 6). -/
def nibbles : List Byte → Nat
  | [] => 0
  | x :: xs => x.toNat % 16 + 16 * nibbles xs
def storageOf (dif : Byte) (difes : List Byte) : Nat := dif.toNat / 64 % 2 + 2 * nibbles difes
def tariffOf : List Byte → Nat
  | [] => 0
  | x :: xs => x.toNat / 16 % 4 + 4 * tariffOf xs
def deviceOf : List Byte → Nat
  | [] => 0
  | x :: xs => x.toNat / 64 % 2 + 2 * deviceOf xs

/-- The last record is a "more records follow" record. -/
def EndsWithMore (rs : List Rec) : Prop := ∃ data, rs.getLast? = some (.special 0x1F data)

/-- What `mbus_frame_internal_pack` emits for a parsed wire record (compare `Rec.encode`): manufacturer data get a VIF byte
(0) that was not there, and the length and text of a plain-text VIF are missing. -/
def Emitted : Rec → List Byte
  | .special dif data => dif :: 0 :: data
  | .value dif difes vif _ vifes data => dif :: difes ++ vif :: vifes ++ data

end Mbus.Spec
