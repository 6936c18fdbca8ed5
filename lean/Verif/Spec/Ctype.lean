import Verif.Model.Ctype
import Verif.Spec.Num
/-
What locales say about ASCII characters.
-/
namespace Mbus.Spec

/-- The locale has the letters and blanks of ASCII (any locale in use: ISO C asks it only of the "C" locale), leaves capital letters as they are,
and makes every small letter but `i` a capital. -/
structure AsciiClasses (T : Ctype) : Prop where
  alpha : ∀ b : Byte, b.toNat < 128 → (T.alpha b = true ↔ Letter b)
  space : ∀ b : Byte, b.toNat < 128 → (T.space b = true ↔ b.toNat = 32 ∨ (9 ≤ b.toNat ∧ b.toNat ≤ 13))
  upper : ∀ b : Byte, Letter b → b ≠ 105 → T.upper b = (upper b).toNat

/-- The capital form of `i` is `I`. -/
def EnglishI (T : Ctype) : Prop := T.upper 105 = 73
/-- Turkish and Azeri locales: it is the letter `İ` - 221 in ISO 8859-9, no single byte in UTF-8, where `i` is left as it is. -/
def TurkishI (T : Ctype) : Prop := T.upper 105 = 221 ∨ T.upper 105 = 105 ∨ T.upper 105 = -35

end Mbus.Spec
