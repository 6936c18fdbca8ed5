import Verif.Base
/-
Text that does nothing to a terminal but show characters.
-/
namespace Mbus.Spec

/-- A line feed, or a byte that is neither an ASCII control character nor DEL. -/
def Tame (c : Byte) : Prop := c = 10 ∨ (32 ≤ c.toNat ∧ c ≠ 127)
instance (c : Byte) : Decidable (Tame c) := by unfold Tame; infer_instance

/-- A text of such bytes. -/
def TameText (t : List Byte) : Prop := ∀ c ∈ t, Tame c
instance (t : List Byte) : Decidable (TameText t) := by unfold TameText; infer_instance

end Mbus.Spec
