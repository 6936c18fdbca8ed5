import Verif.Model.Record
import Verif.Model.Codec
/-
Model of the address functions of mbus/mbus-protocol.c: validation, the secondary address text of a response frame, packing a
secondary address (mask) into a selection frame.
-/
namespace Mbus

/-- mbus-protocol.c:5299-5303 `mbus_is_primary_address(value)` -/
def isPrimaryAddress (v : Int) : Bool := decide (0 ≤ v) && decide (v ≤ 255)

/-- mbus-protocol.c:5308-5326 `mbus_is_secondary_address(value)`, non-NULL.  `isxdigit` of a negative `char` (bytes 0x80 and
above where `char` is signed) is taken to be false, as in the C library tables. -/
def isSecondaryAddress (s : List Byte) : Bool := decide (s.length = 16) && s.all isXDigit

/-- `strtol(tmp, NULL, 16)` of a text of hexadecimal digits -/
def strtolHex (s : List Byte) : Nat := s.foldl (fun v c => v * 16 + hexVal c) 0

/-- mbus-protocol.c:5275-5291, one iteration of the loop over the identification digits: `data[j] |= nibble << (4 * k--)`.
`j` is only used while it is not negative. -/
def selectDigit (s : List Byte) (i : Nat) (st : Buf 252 × Nat × Nat) : C (Buf 252 × Nat × Nat) := do
  let (d, j, k) := st
  let c ← rd s i
  let nib := if c = 70 ∨ c = 102 then 15 else (c.toNat - 48) % 16
  let b ← d.rd j
  let d ← d.wr j (b ||| UInt8.ofNat (nib * 16 ^ k))
  if k = 0 then .ok (d, j - 1, 1) else .ok (d, j, k - 1)

/-- mbus-protocol.c:5229-5294 `mbus_frame_select_secondary_pack(frame, address)`, both non-NULL. -/
def selectPack (f : Frame) (s : List Byte) : C (Int × Frame) :=
  if isSecondaryAddress s = false then .ok (-1, f)
  else do
    let f := { f with control := MASK_SND_UD ||| MASK_DIR_M2S ||| MASK_FCB, address := 0xFD, ci := 0x52, dataSize := 8 }
    let d ← f.data.wr 7 (UInt8.ofNat (strtolHex ((s.drop 14).take 2)))
    let d ← d.wr 6 (UInt8.ofNat (strtolHex ((s.drop 12).take 2)))
    let val := strtolHex ((s.drop 8).take 4)
    let d ← d.wr 4 (UInt8.ofNat (val / 256))
    let d ← d.wr 5 (UInt8.ofNat val)
    let d ← d.wr 0 0
    let d ← d.wr 1 0
    let d ← d.wr 2 0
    let d ← d.wr 3 0
    let (d, _, _) ← forN 8 0 (d, 3, 1) (selectDigit s)
    .ok (0, { f with data := d })

/-- mbus-protocol.c:5183-5224 `mbus_frame_get_secondary_address(frame)`, non-NULL: `none` is NULL.  The text is stored in a
static 32-byte buffer by `snprintf`; it is at most 24 characters long, so nothing is cut. -/
def getSecondaryAddress (f : Frame) : C (Option (List Byte)) :=
  if f.ci ≠ 0x72 then .ok none
  else do
    let (r, x) ← frameDataParse f FrameData.new
    if r = -1 then .ok none
    else do
      let id ← bcdDecodeHex x.var.header.idBcd.bytes 4
      let m0 ← x.var.header.manufacturer.rd 0
      let m1 ← x.var.header.manufacturer.rd 1
      .ok (some (padZero 8 (hexDigits id.toNat) ++ fmtHex2 m0 ++ fmtHex2 m1 ++ fmtHex2 x.var.header.version ++
        fmtHex2 x.var.header.medium))

end Mbus
