import Verif.Model.Record
import Verif.Model.Unit
import Verif.Spec.Records
import Verif.Spec.Deliver
import Verif.Spec.Num
import Verif.Spec.Value
/-
The words the statements about parsed telegrams, their records and their values use.
-/
namespace Mbus
open Spec

/-- Documented number of bytes on the wire per frame type. -/
def wireSize (f : Frame) : Option Nat :=
  if f.type = 1 then some 1 else if f.type = 2 then some 5 else if f.type = 3 then some 9
  else if f.type = 4 then some (f.dataSize + 9) else none

/-- array holding `l` followed by zeros (cut to `n`) -/
def pad (n : Nat) (l : List Byte) : Buf n := ⟨(l ++ List.replicate n 0).take n, by simp⟩

/-- the record structure that describes a wire record, arrays zero filled (it is related to it by `Delivers`) -/
def mkRec : Rec → Record
  | .special dif data =>
      { Record.new with
        dif := dif
        data := pad 234 data
        dataLen := data.length }
  | .value dif difes vif text vifes data =>
      { dif := dif, dife := pad 10 difes, ndife := difes.length, vif := vif, vife := pad 10 vifes, nvife := vifes.length,
        customVif := if PlainText vif then pad 128 text.reverse else Buf.zero 128,
        data := pad 234 data, dataLen := data.length }

/-- Outcome of parse followed by pack: the payload of the packed frame. -/
def repack (f : Frame) : C (Option (List Byte)) := do
  let (c, x) ← frameDataParse f FrameData.new
  if c ≠ 0 then .ok none
  else do
    let (_, g) ← internalPack Frame.zero x
    .ok (some (payload g))

/-- What the parser guarantees about every record it delivers (`C32_bounds`). -/
def Delivered (r : Record) : Prop :=
  ∃ f v v', f.dataSize ≤ 252 ∧ variableParse f v = .ok (0, v') ∧ r ∈ v'.records

/-- The storage number of the record is one the library can compute (see C33). -/
def StorageOk (r : Record) : Prop := r.ndife ≤ 8 ∧ storageOf r.dif (r.dife.bytes.take r.ndife) < 2 ^ 31

/-- The counter value of the fixed format: packed decimal, or a signed binary number when status bit 7 is set. -/
def counterValue (status : Byte) (d : List Byte) : Int :=
  if 0x80 ≤ status.toNat then leInt (d.take 4) else bcdValue (d.take 4)

/-- codes whose label and table row disagree, or that have no table row -/
def fixedBad : List Nat := [0x0D, 0x0E, 0x15, 0x16, 0x17, 0x18, 0x19, 0x1A, 0x1B, 0x1C, 0x2F, 0x30]

/-- A record whose VIF is a primary VIF with extension bit (not one of the escapes 0xFB, 0xFC, 0xFD). -/
def ExtendedPrimary (r : Record) : Prop := 0x80 ≤ r.vif.toNat ∧ r.vif ≠ 0xFB ∧ r.vif ≠ 0xFC ∧ r.vif ≠ 0xFD

/-- The unit normalisation a plain primary VIF (no extension bit) would get. -/
def plainVif (r : Record) (x : Flt) : Norm := vifUnitNormalize ((r.vif.toNat % 128 : Nat) : Int) x

/-- The first VIFE of a record (0 in a record without VIFE). -/
def vife0 (r : Record) : Nat := (r.vife.bytes[0]'(by simp)).toNat

end Mbus
