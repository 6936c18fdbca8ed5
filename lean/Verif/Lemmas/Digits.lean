import Verif.Model.CStr
/- Fixed-width digit strings: `printf("%0Nd")`, `printf("%0NX")`. -/
namespace Mbus

/-- exactly `w` hexadecimal digits of `n mod 16^w` -/
def hexW : Nat → Nat → List Byte
  | 0, _ => []
  | w + 1, n => hexW w (n / 16) ++ [hexDigitU (n % 16)]

/-- exactly `w` decimal digits of `n mod 10^w` -/
def decW : Nat → Nat → List Byte
  | 0, _ => []
  | w + 1, n => decW w (n / 10) ++ [UInt8.ofNat (48 + n % 10)]

@[simp] theorem hexW_length (w n : Nat) : (hexW w n).length = w := by
  induction w generalizing n with
  | zero => rfl
  | succ w ih => simp [hexW, ih]

@[simp] theorem decW_length (w n : Nat) : (decW w n).length = w := by
  induction w generalizing n with
  | zero => rfl
  | succ w ih => simp [decW, ih]

theorem hexW_zero (w : Nat) : hexW w 0 = List.replicate w 48 := by
  induction w with
  | zero => rfl
  | succ w ih => rw [hexW, Nat.zero_div, ih, List.replicate_succ']; rfl

theorem decW_zero (w : Nat) : decW w 0 = List.replicate w 48 := by
  induction w with
  | zero => rfl
  | succ w ih => rw [decW, Nat.zero_div, ih, List.replicate_succ']; rfl

theorem padZero_append (w : Nat) (x : List Byte) (d : Byte) : padZero (w + 1) (x ++ [d]) = padZero w x ++ [d] := by
  simp [padZero]

theorem padZero_hex (w n : Nat) (hw : 1 ≤ w) (h : n < 16 ^ w) : padZero w (hexDigits n) = hexW w n := by
  induction w generalizing n with
  | zero => omega
  | succ w ih =>
    rw [hexDigits]
    by_cases hn : n < 16
    · rw [dif_pos hn, hexW, Nat.div_eq_of_lt hn, hexW_zero, Nat.mod_eq_of_lt hn]; simp [padZero]
    · rw [dif_neg hn, padZero_append, hexW, ih]
      · cases w with
        | zero => simp at h; omega
        | succ w => omega
      · rw [Nat.pow_succ] at h; omega

theorem padZero_dec (w n : Nat) (hw : 1 ≤ w) (h : n < 10 ^ w) : padZero w (decDigits n) = decW w n := by
  induction w generalizing n with
  | zero => omega
  | succ w ih =>
    rw [decDigits]
    by_cases hn : n < 10
    · rw [dif_pos hn, decW, Nat.div_eq_of_lt hn, decW_zero, Nat.mod_eq_of_lt hn]; simp [padZero]
    · rw [dif_neg hn, padZero_append, decW, ih]
      · cases w with
        | zero => simp at h; omega
        | succ w => omega
      · rw [Nat.pow_succ] at h; omega

end Mbus
