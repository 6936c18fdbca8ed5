import Verif.Base
/-
Specification of the variable data structure (EN 1434-3 / EN 13757-3): what a data record is on the wire.
Independent of the parser.
-/
namespace Mbus.Spec

/-- A data record on the wire. -/
inductive Rec where
  /-- DIF 0x0F / 0x1F: manufacturer specific data up to the end of the payload. -/
  | special (dif : Byte) (data : List Byte)
  /-- An ordinary record: DIF, DIFEs, VIF, text of a plain-text VIF, VIFEs, data. -/
  | value (dif : Byte) (difes : List Byte) (vif : Byte) (text : List Byte) (vifes : List Byte) (data : List Byte)
  deriving DecidableEq, Repr

/-- Extension chain: every byte but the last one has bit 7 set, the last one does not. -/
def Chain : Byte → List Byte → Prop
  | b, [] => b.toNat < 128
  | b, x :: xs => 128 ≤ b.toNat ∧ Chain x xs

instance decChain : (b : Byte) → (l : List Byte) → Decidable (Chain b l)
  | b, [] => by unfold Chain; infer_instance
  | b, x :: xs => by
      unfold Chain
      have := decChain x xs
      infer_instance

/-- The VIF announces a plain-text unit (0x7C / 0xFC). -/
def PlainText (vif : Byte) : Prop := vif.toNat % 128 = 0x7C
instance (v : Byte) : Decidable (PlainText v) := by unfold PlainText; infer_instance

/-- Field widths of EN 1434-3 table 5 by the low nibble of the DIF (0xD = variable length, see `lvarBytes`). -/
def width (dif : Byte) : Nat := [0, 1, 2, 3, 4, 4, 6, 8, 0, 1, 2, 3, 4, 0, 6, 8].getD (dif.toNat % 16) 0

/-- Variable length (low nibble 0xD): number of bytes that follow the LVAR byte *as this library counts them*.
(EN 13757-3 gives (LVAR-0xC0) bytes, i.e. twice as many digits, for 0xC0..0xC9 and 0xD0..0xD9; see `lvarStandard`.) -/
def lvarBytes (b : Byte) : Nat :=
  let n := b.toNat
  if n < 0xC0 then n
  else if n ≤ 0xC9 then 2 * (n - 0xC0)
  else if 0xD0 ≤ n ∧ n ≤ 0xD9 then 2 * (n - 0xD0)
  else if 0xE0 ≤ n ∧ n ≤ 0xEF then n - 0xE0
  else if 0xF0 ≤ n ∧ n ≤ 0xF4 then 4 * (n - 0xEC)
  else if n = 0xF5 then 48
  else if n = 0xF6 then 64
  else 0

/-- Byte count of EN 13757-3 for the LVAR values it defines; `none` for reserved ones. -/
def lvarStandard (b : Byte) : Option Nat :=
  let n := b.toNat
  if n < 0xC0 then some n                                -- n characters
  else if n ≤ 0xC9 then some (n - 0xC0)                  -- (n - C0)*2 BCD digits
  else if 0xD0 ≤ n ∧ n ≤ 0xD9 then some (n - 0xD0)       -- negative, (n - D0)*2 BCD digits
  else if 0xE0 ≤ n ∧ n ≤ 0xEF then some (n - 0xE0)       -- binary number
  else if 0xF0 ≤ n ∧ n ≤ 0xF4 then some (4 * (n - 0xEC)) -- binary number
  else if n = 0xF5 then some 48
  else if n = 0xF6 then some 64
  else none

/-- Length of the data field of a record with this DIF and these data bytes. -/
def DataFits (dif : Byte) (data : List Byte) : Prop :=
  if dif.toNat % 16 = 0xD then ∃ lvar rest, data = lvar :: rest ∧ rest.length = lvarBytes lvar
  else data.length = width dif

/-- Well-formed record that fits the library's record structure (10 DIFEs, 10 VIFEs, 127 text characters, 234 data
bytes). -/
def Rec.Legal : Rec → Prop
  | .special dif data => (dif = 0x0F ∨ dif = 0x1F) ∧ data.length ≤ 234
  | .value dif difes vif text vifes data =>
      dif ≠ 0x0F ∧ dif ≠ 0x1F ∧ dif ≠ 0x2F ∧ Chain dif difes ∧ difes.length ≤ 10 ∧ Chain vif vifes ∧ vifes.length ≤ 10 ∧
      text.length ≤ 127 ∧ (¬ PlainText vif → text = []) ∧ DataFits dif data

/-- The bytes of a record. -/
def Rec.encode : Rec → List Byte
  | .special dif data => dif :: data
  | .value dif difes vif text vifes data =>
      dif :: difes ++ vif :: (if PlainText vif then UInt8.ofNat text.length :: text else []) ++ vifes ++ data

/-- `Tiles bs rs`: the bytes `bs` are exactly the records `rs`, in order, with 0x2F fillers anywhere between them; a
special record extends to the end. -/
inductive Tiles : List Byte → List Rec → Prop
  | nil : Tiles [] []
  | filler {bs : List Byte} {rs : List Rec} : Tiles bs rs → Tiles (0x2F :: bs) rs
  | last (dif : Byte) (data : List Byte) : (Rec.special dif data).Legal → Tiles (dif :: data) [.special dif data]
  | cons {dif difes vif text vifes data} {bs : List Byte} {rs : List Rec} :
      (Rec.value dif difes vif text vifes data).Legal → Tiles bs rs →
      Tiles ((Rec.value dif difes vif text vifes data).encode ++ bs) (.value dif difes vif text vifes data :: rs)

end Mbus.Spec
