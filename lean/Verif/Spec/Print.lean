import Verif.Spec.Link
import Verif.Spec.Records
import Verif.Spec.Labels
import Verif.Spec.Address
import Verif.Spec.Xml
/-
Specification of the dumps on standard output, line by line.
-/
namespace Mbus.Spec

/-- two upper case hexadecimal digits -/
def hex2 (n : Nat) : List Byte := [hexUpper.getD (n / 16) 0, hexUpper.getD (n % 16) 0]

/-- bytes in hexadecimal, each followed by a space -/
def hexList (bs : List Byte) : List Byte := bs.flatMap fun b => hex2 b.toNat ++ [32]

/-- a text of lines -/
def unlines (ls : List (List Byte)) : List Byte := ls.flatMap fun l => l ++ [10]

/-- the type of the frame object for a telegram: 1 acknowledge, 2 short, 3 control, 4 long -/
def Telegram.kind : Telegram → Int
  | .ack => 1
  | .short _ _ => 2
  | .data _ _ _ p => if p = [] then 3 else 4

/-- the dump of `bytes` as a frame of type `type`, said to be of `n` bytes -/
def dumpLine (type n : Int) (bytes : List Byte) : List Byte :=
  cs! "mbus_frame_print: Dumping M-Bus frame [type " ++ fmtInt type ++ cs! ", " ++ fmtInt n ++ cs! " bytes]: " ++ hexList bytes

/-- the dump of a telegram -/
def telegramLine (t : Telegram) : List Byte := dumpLine t.kind t.wire.length t.wire

def extension (b : Byte) : List Byte := if 128 ≤ b.toNat then cs! "Yes" else cs! "No"

/-- the lines for DIFE number `j` -/
def difeLines (j : Nat) (b : Byte) : List (List Byte) :=
  let n := cs! "DIFE[" ++ decDigits j ++ cs! "]"
  [n ++ cs! "               = " ++ hex2 b.toNat,
   n ++ cs! ".Extension     = " ++ extension b,
   n ++ cs! ".Device        = " ++ decDigits (b.toNat / 64 % 2),
   n ++ cs! ".Tariff        = " ++ decDigits (b.toNat / 16 % 4),
   n ++ cs! ".StorageNumber = " ++ hex2 (b.toNat % 16)]

/-- the lines for VIFE number `j` -/
def vifeLines (j : Nat) (b : Byte) : List (List Byte) :=
  let n := cs! "VIFE[" ++ decDigits j ++ cs! "]"
  [n ++ cs! "           = " ++ hex2 b.toNat,
   n ++ cs! ".Extension = " ++ extension b,
   n ++ cs! ".Value     = " ++ hex2 (b.toNat % 128)]

/-- the lines about the DIF of record number `i`; `fn` are the names of the four functions -/
def difLines (fn : List (List Byte)) (i : Nat) (dif : Byte) : List (List Byte) :=
  [cs! "Record ID         = " ++ decDigits i,
   cs! "DIF               = " ++ hex2 dif.toNat,
   cs! "DIF.Extension     = " ++ extension dif,
   cs! "DIF.StorageNumber = " ++ decDigits (dif.toNat / 64 % 2),
   cs! "DIF.Function      = " ++ fn.getD (dif.toNat / 16 % 4) [],
   cs! "DIF.Data          = " ++ hex2 (dif.toNat % 16)]

/-- the dump of record number `i` -/
def recLines (fn : List (List Byte)) (i : Nat) : Rec → List (List Byte)
  | .special dif data =>
      difLines fn i dif ++
      [cs! "mbus_data_variable_print: VENDOR DATA [size=" ++ decDigits data.length ++ cs! "] = " ++ hexList data] ++
      (if dif = 0x1F then [cs! "mbus_data_variable_print: More records follow in next telegram"] else [])
  | .value dif difes vif _ vifes data =>
      difLines fn i dif ++ [cs! "DATA LENGTH = " ++ decDigits data.length] ++
      (difes.zipIdx.flatMap fun q => difeLines q.2 q.1) ++
      [cs! "VIF           = " ++ hex2 vif.toNat, cs! "VIF.Extension = " ++ extension vif, cs! "VIF.Value     = " ++ hex2 (vif.toNat % 128)] ++
      (vifes.zipIdx.flatMap fun q => vifeLines q.2 q.1) ++ [[]]

/-- the names of the functions in a dump (compare `functions`: instantaneous value, maximum value, minimum value, value during error
state) -/
def dumpFunctions : List (List Byte) :=
  [cs! "Instantaneous value", cs! "Value during error state", cs! "Value during error state", cs! "Value during error state"]

/-- the dump of records, numbered from `i` -/
def recsLines (fn : List (List Byte)) : (i : Nat) → List Rec → List (List Byte)
  | _, [] => []
  | i, r :: rs => recLines fn i r ++ recsLines fn (i + 1) rs

/-- the DIF of a record -/
def Rec.difOf : Rec → Byte
  | .special dif _ => dif
  | .value dif _ _ _ _ _ => dif

/-- the function in the DIF is "instantaneous value" or "value during error state" -/
def Rec.Plain (r : Rec) : Prop := r.difOf.toNat / 16 % 4 = 0 ∨ r.difOf.toNat / 16 % 4 = 3

/-- the text for a medium code -/
def mediumLabel (m : Byte) : List Byte :=
  match mediumName m.toNat with
  | some n => n
  | none => if ReservedMedium m.toNat then cs! "Reserved" else cs! "Unknown medium (0x" ++ fmtHex2L m ++ cs! ")"

/-- the dump of the fixed header (12 bytes `p`): identification number (BCD digits, most significant byte last), manufacturer code and
letters, version, medium, access number, status, signature (most significant byte last) -/
def headerLines (p : List Byte) : List (List Byte) :=
  let b (i : Nat) := p.getD i 0
  let h (i : Nat) := hex2 (b i).toNat
  [cs! "ID           = " ++ hexDigits (leNat [b 0, b 1, b 2, b 3]),
   cs! "Manufacturer = 0x" ++ h 5 ++ h 4,
   cs! "Manufacturer = " ++ flagLetters (leNat [b 4, b 5]),
   cs! "Version      = 0x" ++ h 6,
   cs! "Medium       = " ++ mediumLabel (b 7) ++ cs! " (0x" ++ h 7 ++ cs! ")",
   cs! "Access #     = 0x" ++ h 8,
   cs! "Status       = 0x" ++ h 9,
   cs! "Signature    = 0x" ++ h 11 ++ h 10].map (cs! "mbus_data_variable_header_print: " ++ ·)

/-- the dump of fixed-length data (16 bytes `p`: identification number, access number, status, the two unit bytes, the two counters); `unit`
are the names of the units -/
def fixedLines (unit : Nat → List Byte) (p : List Byte) : List (List Byte) :=
  let b (i : Nat) := p.getD i 0
  let medium := fixedMedia.getD (4 * ((b 7).toNat / 64) + (b 6).toNat / 64) []
  [cs! "ID       = " ++ hexDigits (leNat [b 0, b 1, b 2, b 3]),
   cs! "Access # = 0x" ++ hex2 (b 4).toNat,
   cs! "Status   = 0x" ++ hex2 (b 5).toNat,
   cs! "Function = " ++ (if (b 5).toNat / 64 % 2 = 1 then cs! "Stored value" else cs! "Actual value"),
   cs! "Medium1  = " ++ medium,
   cs! "Unit1    = " ++ unit ((b 6).toNat % 64),
   cs! "Counter1 = " ++ counterText (b 5) [b 8, b 9, b 10, b 11],
   cs! "Medium2  = " ++ medium,
   cs! "Unit2    = " ++ unit ((b 7).toNat % 64),
   cs! "Counter2 = " ++ counterText (b 5) [b 12, b 13, b 14, b 15]].map (cs! "mbus_data_fixed_print: " ++ ·)

/-- the names of the units in a dump: those of 0x0D and 0x0E are exchanged -/
def dumpUnits (c : Nat) : List Byte := fixedUnitLabel (if c = 0x0D then 0x0E else if c = 0x0E then 0x0D else c)

end Mbus.Spec
