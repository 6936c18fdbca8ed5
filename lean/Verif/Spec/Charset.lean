import Verif.Base
/-
Characters (numbers of Unicode) and their bytes in ISO 8859-1 and in UTF-8.
-/
namespace Mbus.Spec

/-- The bytes of a character in UTF-8. -/
def utf8Char (c : Nat) : List Byte :=
  if c < 0x80 then [UInt8.ofNat c]
  else if c < 0x800 then [UInt8.ofNat (0xC0 + c / 64), UInt8.ofNat (0x80 + c % 64)]
  else if c < 0x10000 then [UInt8.ofNat (0xE0 + c / 4096), UInt8.ofNat (0x80 + c / 64 % 64), UInt8.ofNat (0x80 + c % 64)]
  else [UInt8.ofNat (0xF0 + c / 262144), UInt8.ofNat (0x80 + c / 4096 % 64), UInt8.ofNat (0x80 + c / 64 % 64), UInt8.ofNat (0x80 + c % 64)]

/-- The characters a reader that takes the bytes `t` as ISO 8859-1 sees: every byte is a character. -/
def asLatin1 (t : List Byte) : List Nat := t.map (·.toNat)

/-- A reader that takes the bytes `t` as UTF-8 sees the characters `cs`. -/
def AsUtf8 (t : List Byte) (cs : List Nat) : Prop := (∀ c ∈ cs, c < 0x110000) ∧ t = cs.flatMap utf8Char
instance (t : List Byte) (cs : List Nat) : Decidable (AsUtf8 t cs) := by unfold AsUtf8; infer_instance

end Mbus.Spec
