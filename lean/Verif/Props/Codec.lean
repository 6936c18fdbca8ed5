import Verif.Lemmas.Num
import Verif.Lemmas.Bcd
import Verif.Lemmas.Text
import Verif.Lemmas.Digits
/-
Property theorems C11-C18, C20-C25 (data encodings).
-/
namespace Mbus
open Spec

/-! ### C11, C12: integers -/

theorem leInt_bytesOf (n : Nat) (v : Int) (hv : -(256 ^ n : Int) ≤ 2 * v ∧ 2 * v < 256 ^ n) : leInt (bytesOf n v) = v := by
  have h := leNat_bytesOf n v
  have hp : (0 : Int) < 256 ^ n := Int.pow_pos (by omega)
  have hc : ((256 ^ n : Nat) : Int) = (256 : Int) ^ n := by rw [Int.natCast_pow]; rfl
  unfold leInt
  rw [bytesOf_length]
  by_cases h0 : 0 ≤ v
  · rw [Int.emod_eq_of_lt h0 (by omega)] at h
    rw [if_pos (by omega)]; exact h
  · have : v % 256 ^ n = v + 256 ^ n := by
      rw [← Int.add_emod_right, Int.emod_eq_of_lt (by omega) (by omega)]
    rw [this] at h
    rw [if_neg (by omega)]; omega

/-- C12 (`int`, 1 to 4 bytes): the decoder delivers the little-endian two's-complement value, no overflow, for every
byte string and whatever follows it in memory. -/
theorem C12_int_decode (d : List Byte) (size : Nat) (h1 : 1 ≤ size) (h4 : size ≤ 4) (hs : size ≤ d.length) :
    intDecode d size = .ok (0, leInt (d.take size)) :=
  intDecodeWith_eq int32 2147483647 int32_ok d size h1 hs (by have := pow256_le h4; omega)

example : intDecode [0xFE, 0xFF, 0xFF, 0x7F, 0x55] 3 = .ok (0, leInt [0xFE, 0xFF, 0xFF]) := C12_int_decode _ 3 (by decide) (by decide) (by decide)

/-- C12 (`long`, 1 to 8 bytes). -/
theorem C12_long_decode (d : List Byte) (size : Nat) (h1 : 1 ≤ size) (h8 : size ≤ 8) (hs : size ≤ d.length) :
    longDecode d size = .ok (0, leInt (d.take size)) :=
  intDecodeWith_eq int64 9223372036854775807 int64_ok d size h1 hs (by have := pow256_le h8; omega)

example : longDecode [0, 0, 0, 0x80, 0x55] 5 = .ok (0, leInt [0, 0, 0, 0x80, 0x55]) := C12_long_decode _ 5 (by decide) (by decide) (by decide)

/-- C12 (`long long`, 1 to 8 bytes). -/
theorem C12_long_long_decode (d : List Byte) (size : Nat) (h1 : 1 ≤ size) (h8 : size ≤ 8) (hs : size ≤ d.length) :
    longLongDecode d size = .ok (0, leInt (d.take size)) :=
  intDecodeWith_eq int64 9223372036854775807 int64_ok d size h1 hs (by have := pow256_le h8; omega)

example : longLongDecode [1, 0, 0, 0, 0, 0, 0, 0x80, 3] 8 = .ok (0, leInt [1, 0, 0, 0, 0, 0, 0, 0x80]) :=
  C12_long_long_decode _ 8 (by decide) (by decide) (by decide)

/-- C12: size 0 is refused by all three. -/
theorem C12_size_zero (d : List Byte) :
    intDecode d 0 = .ok (-1, 0) ∧ longDecode d 0 = .ok (-1, 0) ∧ longLongDecode d 0 = .ok (-1, 0) := ⟨rfl, rfl, rfl⟩

example : intDecode [0xFE, 0xFF, 0x55] 2 = .ok (0, -2) ∧ leInt [0xFE, 0xFF] = -2 ∧
    longLongDecode [0, 0, 0, 0, 0, 0, 0, 0x80] 8 = .ok (0, -9223372036854775808) := by decide +kernel

/-- C11: decoding what `mbus_data_int_encode` wrote gives the value back, for every value representable in `n` bytes;
nothing but the first `n` bytes changes. -/
theorem C11_encode_decode (buf : List Byte) (n : Nat) (v : Int) (h1 : 1 ≤ n) (h4 : n ≤ 4) (hb : n ≤ buf.length)
    (hv : -(256 ^ n : Int) ≤ 2 * v ∧ 2 * v < 256 ^ n) :
    ∃ d, intEncode buf n v = .ok d ∧ d.length = buf.length ∧ d.drop n = buf.drop n ∧ intDecode d n = .ok (0, v) := by
  refine ⟨_, intEncode_eq buf n v hb h4, by simp; omega, ?_, ?_⟩
  · rw [List.drop_left' (by simp)]
  · rw [C12_int_decode _ n h1 h4 (by simp), List.take_left' (by simp), leInt_bytesOf n v hv]

/-- the smallest 16-bit number -/
example := C11_encode_decode [9, 9, 9] 2 (-32768) (by decide) (by decide) (by decide) (by decide)

/-- C11: encoding the decoded value restores the bytes. -/
theorem C11_decode_encode (d : List Byte) (n : Nat) (h1 : 1 ≤ n) (h4 : n ≤ 4) (hs : n ≤ d.length) :
    ∃ v, intDecode d n = .ok (0, v) ∧ intEncode d n v = .ok d := by
  refine ⟨_, C12_int_decode d n h1 h4 hs, ?_⟩
  rw [intEncode_eq d n _ hs h4]
  have hl : (d.take n).length = n := by simp; omega
  have hc : ((256 ^ n : Nat) : Int) = (256 : Int) ^ n := by rw [Int.natCast_pow]; rfl
  have : bytesOf n (leInt (d.take n)) = d.take n := by
    apply leNat_inj _ _ (by simp; omega)
    have h := leNat_bytesOf n (leInt (d.take n))
    have hlt := leNat_lt (d.take n)
    rw [hl] at hlt
    have : (leInt (d.take n)) % 256 ^ n = leNat (d.take n) := by
      unfold leInt
      rw [hl]
      split
      · exact Int.emod_eq_of_lt (by omega) (by omega)
      · rw [← Int.add_emod_right, Int.sub_add_cancel]; exact Int.emod_eq_of_lt (by omega) (by omega)
    rw [this] at h
    exact Int.ofNat.inj h
  rw [this, List.take_append_drop]

example : intEncode [9, 9, 9] 2 (-300) = .ok [0xD4, 0xFE, 9] ∧ intDecode [0xD4, 0xFE, 9] 2 = .ok (0, -300) := by decide +kernel

/-! ### C13-C15: BCD -/

theorem bcdNat_append (a b : List Byte) : bcdNat (a ++ b) = bcdNat a + 100 ^ a.length * bcdNat b := by
  induction a with
  | nil => simp [bcdNat]
  | cons x xs ih => simp only [List.cons_append, bcdNat, ih, List.length_cons, Nat.pow_succ]; grind

theorem bcdVal_append (a b : List Byte) : bcdVal (a ++ b) = bcdVal a + 100 ^ a.length * bcdVal b := by
  induction a with
  | nil => simp [bcdVal]
  | cons x xs ih => simp only [List.cons_append, bcdVal, ih, List.length_cons, Nat.pow_succ]; grind

/-- C13: packed BCD digits decode to the decimal number they spell. -/
theorem C13_bcd_decode (d : List Byte) (size : Nat) (h1 : 1 ≤ size) (h9 : size ≤ 9) (hs : size ≤ d.length)
    (hd : IsBcd (d.take size)) : bcdDecode d size = .ok (bcdNat (d.take size) : Int) := by
  rw [bcdDecode_eq d size h1 h9 hs, bcdVal_eq _ hd, if_neg]
  intro h
  have := hd (d[size - 1]) (by
    rw [List.mem_iff_getElem]
    exact ⟨size - 1, by simp; omega, by simp⟩)
  simp_all

example := C13_bcd_decode [0x34, 0x12, 0x99, 0xFF] 3 (by decide) (by decide) (by decide) (by decide)

/-- C13: a most significant nibble 0xF means minus the number spelled by the remaining digits (`x` is the decimal digit
in the low nibble of the last byte). -/
theorem C13_bcd_decode_negative (ds rest : List Byte) (x : Nat) (hx : x ≤ 9) (hd : IsBcd ds) (h9 : ds.length ≤ 8) :
    bcdDecode (ds ++ UInt8.ofNat (0xF0 + x) :: rest) (ds.length + 1) =
      .ok (-(bcdNat (ds ++ [UInt8.ofNat x]) : Int)) := by
  have e1 : (UInt8.ofNat (0xF0 + x)).toNat = 0xF0 + x := UInt8.toNat_ofNat_of_lt' (show _ < 256 by omega)
  have e2 : (UInt8.ofNat x).toNat = x := UInt8.toNat_ofNat_of_lt' (show _ < 256 by omega)
  have ht : (ds ++ UInt8.ofNat (0xF0 + x) :: rest).take (ds.length + 1) = ds ++ [UInt8.ofNat (0xF0 + x)] := by
    rw [List.take_append, List.take_of_length_le (by omega)]; simp
  rw [bcdDecode_eq _ _ (by omega) (by omega) (by simp), ht, if_pos]
  · rw [bcdVal_append, bcdNat_append, bcdVal_eq _ hd]
    simp only [bcdVal, bcdNat, e1, e2]
    have a1 : (0xF0 + x) / 16 = 15 := by omega
    have a2 : (0xF0 + x) % 16 = x := by omega
    have a3 : x / 16 = 0 := by omega
    have a4 : x % 16 = x := by omega
    rw [a1, a2, a3, a4]; simp
  · simp; omega

example : IsBcd [0x34, 0x12] ∧ bcdDecode [0x34, 0x12, 0xFF] 2 = .ok 1234 ∧ bcdNat [0x34, 0x12] = 1234 ∧
    bcdDecode [0x34, 0xF2] 2 = .ok (-234) := by decide

/-- C14 is violated: encoding 1234 into two bytes and decoding them gives 3412 (the encoder writes the most significant
byte first, the decoder reads it last). -/
theorem C14_roundtrip_violation :
    ¬ ∀ (buf : List Byte) (n v : Nat), 1 ≤ n → n ≤ buf.length → n ≤ 9 → v < 100 ^ n → v ≤ 2147483647 →
      ∃ d, bcdEncode buf n v = .ok (0, d) ∧ bcdDecode d n = .ok (v : Int) := by
  intro h
  obtain ⟨d, h1, h2⟩ := h [0, 0] 2 1234 (by omega) (by decide) (by omega) (by omega) (by omega)
  have : bcdEncode [0, 0] 2 1234 = .ok (0, [0x12, 0x34]) := by decide
  rw [show ((1234 : Nat) : Int) = 1234 from rfl, this] at h1
  injection h1 with h1
  have e : d = [0x12, 0x34] := by simpa using h1.symm
  subst e
  revert h2; decide

/-- C14, what holds: the encoder writes the decimal digits of the value, most significant byte first, into exactly `n`
bytes, so the *reversed* bytes decode to the value. Missing: the round trip without the reversal, which is false for
`n > 1` (`C14_roundtrip_violation`). -/
theorem C14_bcd_reversed_roundtrip_partial (buf : List Byte) (n v : Nat) (h1 : 1 ≤ n) (h9 : n ≤ 9) (hb : n ≤ buf.length)
    (hv : v < 100 ^ n) (hv' : v ≤ 2147483647) :
    ∃ d, bcdEncode buf n v = .ok (0, d ++ buf.drop n) ∧ d.length = n ∧ bcdDecode d.reverse n = .ok (v : Int) := by
  refine ⟨_, bcdEncode_eq buf n v h1 hb hv', by simp, ?_⟩
  rw [List.reverse_reverse, C13_bcd_decode _ n h1 h9 (by simp) (by rw [List.take_of_length_le (by simp)]; exact isBcd_bytes n v),
    List.take_of_length_le (by simp), bcdNat_bytes n v hv]

example := C14_bcd_reversed_roundtrip_partial [0, 0, 0, 7] 3 123456 (by decide) (by decide) (by decide) (by decide) (by decide)

/-- C14, what holds: one-byte values do round-trip. -/
theorem C14_bcd_one_byte_partial (buf : List Byte) (v : Nat) (hb : 1 ≤ buf.length) (hv : v < 100) :
    ∃ d, bcdEncode buf 1 v = .ok (0, d) ∧ bcdDecode d 1 = .ok (v : Int) := by
  refine ⟨_, bcdEncode_eq buf 1 v (by omega) hb (by omega), ?_⟩
  have hr : (bcdBytes 1 v).reverse = bcdBytes 1 v := rfl
  rw [hr, C13_bcd_decode _ 1 (by omega) (by omega) (by simp) (by
    rw [List.take_left' (by simp)]; exact isBcd_bytes 1 v), List.take_left' (by simp), bcdNat_bytes 1 v (by simpa using hv)]

example : bcdEncode [0, 0, 0] 2 1234 = .ok (0, [0x12, 0x34, 0]) := by decide

/-- C14, negative values: the digits are those of the absolute value, and the sign is put into the high nibble of the last of the
`n` bytes, where the decoder looks for it. Missing: that nibble holds a digit of the value (`C14_negative_violation`). -/
theorem C14_bcd_negative_partial (buf : List Byte) (n v : Nat) (h1 : 1 ≤ n) (hb : n ≤ buf.length) (h0 : 0 < v) (hv : v ≤ 2147483647) :
    ∃ ds x, bcdEncode buf n v = .ok (0, ds ++ x :: buf.drop n) ∧ ds.length + 1 = n ∧
      bcdEncode buf n (-(v : Int)) = .ok (0, ds ++ (x ||| 0xF0) :: buf.drop n) := by
  have hne : (bcdBytes n v).reverse ≠ [] := by
    intro h
    have := congrArg List.length h
    simp at this
    omega
  obtain ⟨ds, x, hx⟩ : ∃ ds x, (bcdBytes n v).reverse = ds ++ [x] := ⟨_, _, (List.dropLast_concat_getLast hne).symm⟩
  have hl : ds.length + 1 = n := by
    have := congrArg List.length hx
    simpa using this.symm
  refine ⟨ds, x, by rw [bcdEncode_eq buf n v h1 hb hv, hx]; simp, hl, ?_⟩
  have e := bcdEncode_eq buf n v h1 hb hv
  unfold bcdEncode at e ⊢
  rw [if_neg (by omega)] at e ⊢
  rw [if_neg (by omega), int32_ok _ (by omega) (by omega), ok_bind] at e
  rw [if_pos (by omega), int32_ok _ (by omega) (by omega), ok_bind]
  rw [show (-(-(v : Int))).toNat = (v : Int).toNat by omega]
  rw [bind_eq_ok] at e
  obtain ⟨⟨d, w⟩, e1, e2⟩ := e
  simp only at e2
  rw [if_neg (by omega)] at e2
  cases e2
  erw [e1]
  rw [ok_bind]
  simp only
  rw [if_pos (by omega), hx]
  have hk : (ds ++ [x] ++ buf.drop n)[n - 1]? = some x := by
    rw [List.append_assoc, List.getElem?_append_right (by omega), show n - 1 - ds.length = 0 by omega]
    rfl
  have hlt : n - 1 < (ds ++ [x] ++ buf.drop n).length := by simp; omega
  rw [List.getElem?_eq_getElem hlt] at hk
  rw [rd_ok hlt, ok_bind, wr_ok hlt, ok_bind]
  simp only [Option.some.injEq] at hk
  rw [hk, List.append_assoc, List.set_append_right _ _ (by omega), show n - 1 - ds.length = 0 by omega]
  rfl

example := C14_bcd_negative_partial [0, 0, 0, 7] 3 2147483647 (by decide) (by decide) (by decide) (by decide)

/-- C14: one negative digit does round-trip. -/
theorem C14_bcd_negative_digit_partial (buf : List Byte) (v : Nat) (hb : 1 ≤ buf.length) (h0 : 0 < v) (hv : v ≤ 9) :
    ∃ d, bcdEncode buf 1 (-(v : Int)) = .ok (0, d) ∧ bcdDecode d 1 = .ok (-(v : Int)) := by
  obtain ⟨ds, x, h1, h2, h3⟩ := C14_bcd_negative_partial buf 1 v (by omega) hb h0 (by omega)
  have : ds = [] := List.length_eq_zero_iff.mp (by omega)
  subst this
  rw [bcdEncode_eq buf 1 v (by omega) hb (by omega)] at h1
  have hx : x = UInt8.ofNat v := by
    have : bcdBytes 1 v = [UInt8.ofNat v] := by
      have : ∀ v : Fin 10, bcdBytes 1 v.val = [UInt8.ofNat v.val] := by decide
      exact this ⟨v, by omega⟩
    rw [this] at h1
    simpa using h1.symm
  refine ⟨_, h3, ?_⟩
  have := C13_bcd_decode_negative [] (buf.drop 1) v hv (by intro b hb; cases hb) (by simp)
  have e : (x ||| 0xF0) = UInt8.ofNat (0xF0 + v) := by
    have : ∀ v : Fin 10, (UInt8.ofNat v.val ||| 0xF0) = UInt8.ofNat (0xF0 + v.val) := by decide
    rw [hx]
    exact this ⟨v, by omega⟩
  rw [e]
  simpa [bcdNat, show v % 16 = v by omega, show v / 16 = 0 by omega, show v < 256 by omega, Nat.mod_eq_of_lt] using this

example := C14_bcd_negative_digit_partial [0, 7] 9 (by decide) (by decide) (by decide)

/-- C14 is violated for negative values even in one byte: the sign overwrites the tens digit; and `abs` of the smallest `int` is
undefined. -/
theorem C14_negative_violation (rest : List Byte) (b : Byte) :
    bcdEncode (b :: rest) 1 (-12) = .ok (0, 0xF2 :: rest) ∧ bcdDecode (0xF2 :: rest) 1 = .ok (-2) ∧
    bcdEncode (b :: rest) 1 (-2147483648) = .error .overflow := by
  refine ⟨?_, ?_, rfl⟩
  · obtain ⟨ds, x, h1, h2, h3⟩ := C14_bcd_negative_partial (b :: rest) 1 12 (by omega) (by simp) (by omega) (by omega)
    have : ds = [] := List.length_eq_zero_iff.mp (by omega)
    subst this
    rw [bcdEncode_eq (b :: rest) 1 12 (by omega) (by simp) (by omega)] at h1
    have hx : x = 0x12 := by simpa [bcdBytes] using h1.symm
    subst hx
    exact h3
  · exact C13_bcd_decode_negative [] rest 2 (by decide) (by intro b hb; cases hb) (by simp)

example : bcdEncode [0, 0, 0] 2 (-1234) = .ok (0, [0x12, 0xF4, 0]) := by decide

/-- C15: the hexadecimal BCD decoder returns the little-endian value of up to 7 bytes, without overflow. -/
theorem C15_bcd_hex (d : List Byte) (size : Nat) (h7 : size ≤ 7) (hs : size ≤ d.length) :
    bcdDecodeHex d size = .ok (leNat (d.take size) : Int) := bcdDecodeHex_eq d size h7 hs

example : bcdDecodeHex [0x78, 0x56, 0x34, 0xFA, 1] 4 = .ok (leNat [0x78, 0x56, 0x34, 0xFA] : Int) := C15_bcd_hex _ 4 (by decide) (by decide)

theorem hexW_leNat (l : List Byte) : hexW (2 * l.length) (leNat l) = l.reverse.flatMap fmtHex2 := by
  induction l with
  | nil => rfl
  | cons b bs ih =>
    have hb := b.toNat_lt
    rw [show 2 * (b :: bs).length = 2 * bs.length + 1 + 1 by simp; omega, hexW, hexW, List.reverse_cons,
      List.flatMap_append, ← ih]
    have e1 : leNat (b :: bs) / 16 / 16 = leNat bs := by simp only [leNat]; omega
    have e2 : leNat (b :: bs) / 16 % 16 = b.toNat / 16 := by simp only [leNat]; omega
    have e3 : leNat (b :: bs) % 16 = b.toNat % 16 := by simp only [leNat]; omega
    rw [e1, e2, e3]; simp [fmtHex2]

/-- C15: printed in hexadecimal with two digits per byte (`%0NllX`), the value shows exactly the bytes from the most to
the least significant. -/
theorem C15_hex_text (d : List Byte) (size : Nat) (h1 : 1 ≤ size) (h7 : size ≤ 7) (hs : size ≤ d.length) :
    ∃ v : Nat, bcdDecodeHex d size = .ok (v : Int) ∧
      padZero (2 * size) (hexDigits v) = (d.take size).reverse.flatMap fmtHex2 := by
  have hl : (d.take size).length = size := by simp; omega
  refine ⟨_, C15_bcd_hex d size h7 hs, ?_⟩
  rw [padZero_hex _ _ (by omega), ← hexW_leNat, hl]
  have := leNat_lt (d.take size)
  rw [hl] at this
  rw [Nat.pow_mul]; exact this

example := C15_hex_text [0x78, 0x56, 0x34, 0x0A, 1] 4 (by decide) (by decide) (by decide)

/-- C15: distinct byte strings decode to distinct values. -/
theorem C15_bcd_hex_injective (d e : List Byte) (size : Nat) (h7 : size ≤ 7) (hd : size ≤ d.length) (he : size ≤ e.length)
    (h : bcdDecodeHex d size = bcdDecodeHex e size) : d.take size = e.take size := by
  rw [C15_bcd_hex d size h7 hd, C15_bcd_hex e size h7 he] at h
  injection h with h
  exact leNat_inj _ _ (by simp; omega) (Int.ofNat.inj h)

example : bcdDecodeHex [0x78, 0x56, 0x34, 0x1A] 4 = .ok 0x1A345678 := by decide

end Mbus
