import Verif.Props.Codec
import Verif.Spec.Date
/-
Property theorems C16-C18, C20-C25 (manufacturer codes, dates, strings, XML escaping, hex text).
-/
namespace Mbus
open Spec

/-! ### C16, C17: manufacturer codes -/

theorem leInt_pair (b1 b2 : Byte) :
    leInt [b1, b2] = if b2.toNat < 128 then (b1.toNat + 256 * b2.toNat : Int) else (b1.toNat : Int) + 256 * b2.toNat - 65536 := by
  have h1 := b1.toNat_lt
  have h2 := b2.toNat_lt
  have e : leNat [b1, b2] = b1.toNat + 256 * b2.toNat := by simp only [leNat]; omega
  have e2 : [b1, b2].length = 2 := rfl
  unfold leInt
  rw [e, e2]
  by_cases h : b2.toNat < 128
  · rw [if_pos h, if_pos (by omega)]; omega
  · rw [if_neg h, if_neg (by omega)]; omega

theorem decodeManufacturer_eq (b1 b2 : Byte) :
    decodeManufacturer b1 b2 = .ok [UInt8.ofNat (b2.toNat / 4 % 32 + 64),
      UInt8.ofNat ((b1.toNat + 256 * b2.toNat) / 32 % 32 + 64), UInt8.ofNat (b1.toNat % 32 + 64)] := by
  have h1 := b1.toNat_lt
  have h2 := b2.toNat_lt
  unfold decodeManufacturer
  rw [C12_int_decode _ 2 (by omega) (by omega) (by simp)]
  simp only [ok_bind, List.take_succ_cons, List.take_zero, leInt_pair, Int.shiftRight_eq_div_pow]
  have key : ∀ z : Int, (z = (b1.toNat + 256 * b2.toNat : Int) ∨ z = (b1.toNat : Int) + 256 * b2.toNat - 65536) →
      (z / ((2 ^ 10 : Nat) : Int) % 32 + 64).toNat = b2.toNat / 4 % 32 + 64 ∧
      (z / ((2 ^ 5 : Nat) : Int) % 32 + 64).toNat = (b1.toNat + 256 * b2.toNat) / 32 % 32 + 64 ∧
      (z % 32 + 64).toNat = b1.toNat % 32 + 64 := by
    intro z hz
    rcases hz with rfl | rfl <;> refine ⟨?_, ?_, ?_⟩ <;> omega
  obtain ⟨k1, k2, k3⟩ := key (if b2.toNat < 128 then (b1.toNat + 256 * b2.toNat : Int) else (b1.toNat : Int) + 256 * b2.toNat - 65536)
    (by split <;> simp)
  rw [k1, k2, k3]

theorem manufacturerEncode_eq (c0 c1 c2 : Byte) (rest m : List Byte) (hm : 2 ≤ m.length) :
    manufacturerEncode m (c0 :: c1 :: c2 :: rest) =
      .ok (bytesOf 2 (((c0.toNat : Int) - 64) % 32 * 1024 + ((c1.toNat : Int) - 64) % 32 * 32 + ((c2.toNat : Int) - 64) % 32) ++ m.drop 2) := by
  unfold manufacturerEncode
  simp only [rd, List.getElem?_cons_zero, List.getElem?_cons_succ, ok_bind]
  exact intEncode_eq m 2 _ hm (by omega)

/-- C16: three capital letters survive encoding and decoding; exactly two bytes are written. -/
theorem C16_encode_decode (c0 c1 c2 : Byte) (rest m : List Byte) (hm : 2 ≤ m.length)
    (h0 : Capital c0) (h1 : Capital c1) (h2 : Capital c2) :
    ∃ b1 b2, manufacturerEncode m (c0 :: c1 :: c2 :: rest) = .ok (b1 :: b2 :: m.drop 2) ∧
      b1.toNat + 256 * b2.toNat = flagId c0 c1 c2 ∧ decodeManufacturer b1 b2 = .ok [c0, c1, c2] := by
  simp only [Capital] at h0 h1 h2
  refine ⟨_, _, manufacturerEncode_eq c0 c1 c2 rest m hm, ?_⟩
  generalize hv : ((c0.toNat : Int) - 64) % 32 * 1024 + ((c1.toNat : Int) - 64) % 32 * 32 + ((c2.toNat : Int) - 64) % 32 = v
  have v0 : 0 ≤ v ∧ v < 32768 := by omega
  have e1 : (UInt8.ofNat (v % 256).toNat).toNat = (v % 256).toNat := UInt8.toNat_ofNat_of_lt' (show _ < 256 by omega)
  have e2 : (UInt8.ofNat (v / 256 % 256).toNat).toNat = (v / 256 % 256).toNat :=
    UInt8.toNat_ofNat_of_lt' (show _ < 256 by omega)
  rw [e1, e2]
  refine ⟨by unfold flagId; omega, ?_⟩
  rw [decodeManufacturer_eq, e1, e2]
  congr 2
  · rw [show (v / 256 % 256).toNat / 4 % 32 + 64 = c0.toNat by omega]; simp
  · congr 1
    · rw [show ((v % 256).toNat + 256 * (v / 256 % 256).toNat) / 32 % 32 + 64 = c1.toNat by omega]; simp
    · rw [show (v % 256).toNat % 32 + 64 = c2.toNat by omega]; simp

example := C16_encode_decode 75 65 77 [0] [0, 0, 7] (by decide) (by unfold Capital; decide) (by unfold Capital; decide) (by unfold Capital; decide)

/-- C16: conversely, encoding the decoded characters restores the two bytes whenever the top bit is clear. -/
theorem C16_decode_encode (b1 b2 : Byte) (m : List Byte) (hm : 2 ≤ m.length) (htop : b2.toNat < 128) :
    ∃ s, decodeManufacturer b1 b2 = .ok s ∧ s.length = 3 ∧ manufacturerEncode m (s ++ [0]) = .ok (b1 :: b2 :: m.drop 2) := by
  have h1 := b1.toNat_lt
  refine ⟨_, decodeManufacturer_eq b1 b2, rfl, ?_⟩
  simp only [List.cons_append, List.nil_append]
  rw [manufacturerEncode_eq _ _ _ _ _ hm]
  have e1 : (UInt8.ofNat (b2.toNat / 4 % 32 + 64)).toNat = b2.toNat / 4 % 32 + 64 := UInt8.toNat_ofNat_of_lt' (show _ < 256 by omega)
  have e2 : (UInt8.ofNat ((b1.toNat + 256 * b2.toNat) / 32 % 32 + 64)).toNat = (b1.toNat + 256 * b2.toNat) / 32 % 32 + 64 :=
    UInt8.toNat_ofNat_of_lt' (show _ < 256 by omega)
  have e3 : (UInt8.ofNat (b1.toNat % 32 + 64)).toNat = b1.toNat % 32 + 64 := UInt8.toNat_ofNat_of_lt' (show _ < 256 by omega)
  rw [e1, e2, e3]
  generalize hz : (((b2.toNat / 4 % 32 + 64 : Nat) : Int) - 64) % 32 * 1024 +
    ((((b1.toNat + 256 * b2.toNat) / 32 % 32 + 64 : Nat) : Int) - 64) % 32 * 32 +
    (((b1.toNat % 32 + 64 : Nat) : Int) - 64) % 32 = z
  have hz' : z = (b1.toNat : Int) + 256 * b2.toNat := by omega
  have k1 : (z % 256).toNat = b1.toNat := by omega
  have k2 : (z / 256 % 256).toNat = b2.toNat := by omega
  simp only [bytesOf, k1, k2, UInt8.ofNat_toNat, List.cons_append, List.nil_append]

example : Capital 0x52 ∧ manufacturerEncode [0, 0] (cs! "RKE") = .ok [0x65, 0x49] ∧
    decodeManufacturer 0x65 0x49 = .ok (cs! "RKE") := by decide +kernel

theorem isAlpha_iff (c : Byte) : isAlpha c = true ↔ Letter c := by
  simp [isAlpha, isUpper, isLower, Letter]

theorem toUpper_upper (c : Byte) (h : Letter c) : toUpper c = upper c := by
  unfold toUpper upper isLower
  unfold Letter at h
  by_cases h97 : 97 ≤ c.toNat
  · simp [h97]; omega
  · simp [h97]

theorem upper_capital : ∀ c : Byte, Letter c → Capital (upper c) := forall_byte (by decide +kernel)

/-- C17: three leading letters give their FLAG number whatever follows; the number is in range. -/
theorem C17_letters (c0 c1 c2 : Byte) (rest : List Byte) (h0 : Letter c0) (h1 : Letter c1) (h2 : Letter c2) :
    manufacturerId (c0 :: c1 :: c2 :: rest) = flagId (upper c0) (upper c1) (upper c2) ∧
      0x0421 ≤ flagId (upper c0) (upper c1) (upper c2) ∧ flagId (upper c0) (upper c1) (upper c2) ≤ 0x6B5A := by
  have k0 := upper_capital c0 h0
  have k1 := upper_capital c1 h1
  have k2 := upper_capital c2 h2
  have hr : 0x0421 ≤ flagId (upper c0) (upper c1) (upper c2) ∧ flagId (upper c0) (upper c1) (upper c2) ≤ 0x6B5A := by
    unfold Capital at k0 k1 k2; unfold flagId; omega
  refine ⟨?_, hr⟩
  have hm : ((upper c0).toNat - 64) * 32 * 32 = ((upper c0).toNat - 64) * 1024 := by omega
  simp only [manufacturerId, (isAlpha_iff _).2 h0, (isAlpha_iff _).2 h1, (isAlpha_iff _).2 h2, toUpper_upper _ h0,
    toUpper_upper _ h1, toUpper_upper _ h2, Bool.not_true, Bool.or_self, hm]
  unfold flagId at hr ⊢
  simp only [hr, and_self, if_true]; rfl

/-- "kAm" -/
example := C17_letters 107 65 109 [0] (by unfold Letter; decide) (by unfold Letter; decide) (by unfold Letter; decide)

/-- C17: every other string gives 0. -/
theorem C17_other (s : List Byte)
    (h : ¬ ∃ c0 c1 c2 rest, s = c0 :: c1 :: c2 :: rest ∧ Letter c0 ∧ Letter c1 ∧ Letter c2) : manufacturerId s = 0 := by
  unfold manufacturerId
  split
  · rename_i c0 c1 c2 rest
    rw [if_pos]
    simp only [Bool.or_eq_true, Bool.not_eq_true']
    by_cases a0 : Letter c0
    · by_cases a1 : Letter c1
      · by_cases a2 : Letter c2
        · exact absurd ⟨c0, c1, c2, rest, rfl, a0, a1, a2⟩ h
        · right; rw [← Bool.not_eq_true, isAlpha_iff]; exact a2
      · left; right; rw [← Bool.not_eq_true, isAlpha_iff]; exact a1
    · left; left; rw [← Bool.not_eq_true, isAlpha_iff]; exact a0
  · rfl

/-- "A1C" -/
example : manufacturerId [65, 49, 67, 0] = 0 := C17_other _ (by
  rintro ⟨c0, c1, c2, rest, h, _, h1, _⟩
  cases h
  revert h1
  unfold Letter
  decide)

/-- C17: the id of three capital letters is the 16-bit number the encoder writes for them. -/
theorem C17_agrees_with_encode (c0 c1 c2 : Byte) (rest : List Byte) (h0 : Capital c0) (h1 : Capital c1) (h2 : Capital c2) :
    ∃ b1 b2, manufacturerEncode [0, 0] (c0 :: c1 :: c2 :: rest) = .ok [b1, b2] ∧
      manufacturerId (c0 :: c1 :: c2 :: rest) = b1.toNat + 256 * b2.toNat := by
  obtain ⟨b1, b2, e1, e2, _⟩ := C16_encode_decode c0 c1 c2 rest [0, 0] (by simp) h0 h1 h2
  have up : ∀ c : Byte, Capital c → Letter c ∧ upper c = c := forall_byte (by decide +kernel)
  refine ⟨b1, b2, e1, ?_⟩
  rw [(C17_letters c0 c1 c2 rest (up _ h0).1 (up _ h1).1 (up _ h2).1).1, (up _ h0).2, (up _ h1).2, (up _ h2).2, e2]

example : manufacturerId (cs! "rkE1") = 0x4965 ∧ manufacturerId (cs! "R1E") = 0 ∧ manufacturerId (cs! "RK") = 0 := by
  decide +kernel

/-! ### C18: dates -/

theorem land_lor_year : ∀ (a : Fin 8) (b : Fin 16), a.val ||| (b.val * 8) = a.val + 8 * b.val := by decide +kernel

theorem byte_fields : ∀ b : Byte,
    (b &&& 0x3F).toNat = b.toNat % 64 ∧ (b &&& 0x1F).toNat = b.toNat % 32 ∧ (b &&& 0x0F).toNat = b.toNat % 16 ∧
    (b &&& 0xE0).toNat >>> 5 = b.toNat / 32 ∧ (b &&& 0xF0).toNat >>> 1 = b.toNat / 16 * 8 ∧
    (b &&& 0x60).toNat >>> 5 = b.toNat / 32 % 4 ∧ ((b &&& 0x80 = 0) ↔ b.toNat / 128 = 0) ∧
    ((b &&& 0x40 = 0) ↔ b.toNat / 64 % 2 = 0) := forall_byte (by decide +kernel)

theorem year_field (a b : Byte) : ((a &&& 0xE0).toNat >>> 5) ||| ((b &&& 0xF0).toNat >>> 1) = a.toNat / 32 + 8 * (b.toNat / 16) := by
  obtain ⟨_, _, _, h1, _, _⟩ := byte_fields a
  obtain ⟨_, _, _, _, h2, _⟩ := byte_fields b
  rw [h1, h2]
  have ha := a.toNat_lt
  have hb := b.toNat_lt
  exact land_lor_year ⟨a.toNat / 32, by omega⟩ ⟨b.toNat / 16, by omega⟩

/-- C18, type G (2 bytes). -/
theorem C18_type_G (d0 d1 : Byte) (rest : List Byte) :
    tmDecode (d0 :: d1 :: rest) 2 = .ok (dateG (leNat [d0, d1])) := by
  have h0 := d0.toNat_lt
  have h1 := d1.toNat_lt
  simp only [tmDecode, rd, List.getElem?_cons_zero, List.getElem?_cons_succ, ok_bind]
  rw [if_neg (by omega), if_neg (by omega), if_pos trivial]
  congr 1
  simp only [Tm.zero, dateG, bits, leNat, year_field, (byte_fields d0).2.1, (byte_fields d1).2.2.1]
  congr 1 <;> omega

/-- C18, type F (4 bytes). -/
theorem C18_type_F (d0 d1 d2 d3 : Byte) (rest : List Byte) :
    tmDecode (d0 :: d1 :: d2 :: d3 :: rest) 4 = .ok (dateF (leNat [d0, d1, d2, d3])) := by
  have h0 := d0.toNat_lt
  have h1 := d1.toNat_lt
  have h2 := d2.toNat_lt
  have h3 := d3.toNat_lt
  obtain ⟨p1, p2, p3, p4, p5, p6, p7, p8⟩ := byte_fields d0
  obtain ⟨q1, q2, q3, q4, q5, q6, q7, q8⟩ := byte_fields d1
  simp only [tmDecode, rd, List.getElem?_cons_zero, List.getElem?_cons_succ, ok_bind, year_field, p1, p7, q2, q6,
    (byte_fields d2).2.1, (byte_fields d3).2.2.1]
  rw [if_neg (by omega), if_pos trivial]
  have a1 : leNat [d0, d1, d2, d3] = d0.toNat + 256 * d1.toNat + 65536 * d2.toNat + 16777216 * d3.toNat := by
    simp only [leNat]; omega
  generalize hw : leNat [d0, d1, d2, d3] = w at *
  have f0 : bits w 7 1 = d0.toNat / 128 := by simp only [bits]; omega
  have f1 : bits w 0 6 = d0.toNat % 64 := by simp only [bits]; omega
  have f2 : bits w 8 5 = d1.toNat % 32 := by simp only [bits]; omega
  have f3 : bits w 13 2 = d1.toNat / 32 % 4 := by simp only [bits]; omega
  have f4 : bits w 15 1 = d1.toNat / 128 := by simp only [bits]; omega
  have f5 : bits w 16 5 = d2.toNat % 32 := by simp only [bits]; omega
  have f6 : bits w 21 3 = d2.toNat / 32 := by simp only [bits]; omega
  have f7 : bits w 24 4 = d3.toNat % 16 := by simp only [bits]; omega
  have f8 : bits w 28 4 = d3.toNat / 16 := by simp only [bits]; omega
  unfold dateF
  rw [f0, f1, f2, f3, f4, f5, f6, f7, f8]
  by_cases hiv : d0.toNat / 128 = 0
  · rw [if_pos hiv, if_neg (show ¬ d0.toNat / 128 = 1 by omega)]
    congr 2
    · by_cases hy : d1.toNat / 32 % 4 = 0 ∧ d2.toNat / 32 + 8 * (d3.toNat / 16) ≤ 80
      · rw [if_pos hy, if_pos hy]; omega
      · rw [if_neg hy, if_neg hy]; omega
    · by_cases hs : d1.toNat / 128 = 0
      · rw [if_neg (fun h => h (q7.2 hs)), hs]; rfl
      · rw [if_pos (fun h => hs (q7.1 h))]; omega
  · rw [if_neg hiv, if_pos (show d0.toNat / 128 = 1 by omega)]

/-- C18, type I (6 bytes). -/
theorem C18_type_I (d0 d1 d2 d3 d4 d5 : Byte) (rest : List Byte) :
    tmDecode (d0 :: d1 :: d2 :: d3 :: d4 :: d5 :: rest) 6 = .ok (dateI (leNat [d0, d1, d2, d3, d4, d5])) := by
  have h0 := d0.toNat_lt
  have h1 := d1.toNat_lt
  have h2 := d2.toNat_lt
  have h3 := d3.toNat_lt
  have h4 := d4.toNat_lt
  have h5 := d5.toNat_lt
  obtain ⟨p1, p2, p3, p4, p5, p6, p7, p8⟩ := byte_fields d0
  obtain ⟨q1, q2, q3, q4, q5, q6, q7, q8⟩ := byte_fields d1
  simp only [tmDecode, rd, List.getElem?_cons_zero, List.getElem?_cons_succ, ok_bind, year_field, p1, q1, q7,
    (byte_fields d2).2.1, (byte_fields d3).2.1, (byte_fields d4).2.2.1]
  rw [if_pos trivial]
  have a1 : leNat [d0, d1, d2, d3, d4, d5] = d0.toNat + 256 * d1.toNat + 65536 * d2.toNat + 16777216 * d3.toNat +
      4294967296 * d4.toNat + 1099511627776 * d5.toNat := by
    simp only [leNat]; omega
  generalize hw : leNat [d0, d1, d2, d3, d4, d5] = w at *
  have f0 : bits w 15 1 = d1.toNat / 128 := by simp only [bits]; omega
  have f1 : bits w 0 6 = d0.toNat % 64 := by simp only [bits]; omega
  have f2 : bits w 8 6 = d1.toNat % 64 := by simp only [bits]; omega
  have f3 : bits w 16 5 = d2.toNat % 32 := by simp only [bits]; omega
  have f4 : bits w 6 1 = d0.toNat / 64 % 2 := by simp only [bits]; omega
  have f5 : bits w 24 5 = d3.toNat % 32 := by simp only [bits]; omega
  have f6 : bits w 29 3 = d3.toNat / 32 := by simp only [bits]; omega
  have f7 : bits w 32 4 = d4.toNat % 16 := by simp only [bits]; omega
  have f8 : bits w 36 4 = d4.toNat / 16 := by simp only [bits]; omega
  unfold dateI
  rw [f0, f1, f2, f3, f4, f5, f6, f7, f8]
  by_cases hiv : d1.toNat / 128 = 0
  · rw [if_pos hiv, if_neg (show ¬ d1.toNat / 128 = 1 by omega)]
    congr 2
    · by_cases hs : d0.toNat / 64 % 2 = 0
      · rw [if_neg (fun h => h (p8.2 hs)), hs]; rfl
      · rw [if_pos (fun h => hs (p8.1 h))]; omega
  · rw [if_neg hiv, if_pos (show d1.toNat / 128 = 1 by omega)]

/-- C18: any other size leaves every field zero. -/
theorem C18_other_size (d : List Byte) (size : Nat) (h2 : size ≠ 2) (h4 : size ≠ 4) (h6 : size ≠ 6) :
    tmDecode d size = .ok Tm.zero := by
  unfold tmDecode; rw [if_neg h6, if_neg h4, if_neg h2]

example := C18_other_size [1, 2, 3] 3 (by decide) (by decide) (by decide)

/-- C18: whatever the bytes, no undefined behaviour and every field stays within its bit width. -/
theorem C18_ranges (d : List Byte) (size : Nat) (hs : size ≤ d.length) :
    ∃ t, tmDecode d size = .ok t ∧ 0 ≤ t.sec ∧ t.sec ≤ 63 ∧ 0 ≤ t.min ∧ t.min ≤ 63 ∧ 0 ≤ t.hour ∧ t.hour ≤ 31 ∧
      0 ≤ t.mday ∧ t.mday ≤ 31 ∧ -1 ≤ t.mon ∧ t.mon ≤ 14 ∧ 0 ≤ t.year ∧ t.year ≤ 427 ∧ (t.isdst = 0 ∨ t.isdst = 1) := by
  have hz : 0 ≤ Tm.zero.sec ∧ Tm.zero.sec ≤ 63 ∧ 0 ≤ Tm.zero.min ∧ Tm.zero.min ≤ 63 ∧ 0 ≤ Tm.zero.hour ∧ Tm.zero.hour ≤ 31 ∧
      0 ≤ Tm.zero.mday ∧ Tm.zero.mday ≤ 31 ∧ -1 ≤ Tm.zero.mon ∧ Tm.zero.mon ≤ 14 ∧ 0 ≤ Tm.zero.year ∧ Tm.zero.year ≤ 427 ∧
      (Tm.zero.isdst = 0 ∨ Tm.zero.isdst = 1) := by decide
  by_cases h6 : size = 6
  · subst h6
    match d, hs with
    | d0 :: d1 :: d2 :: d3 :: d4 :: d5 :: rest, _ =>
      refine ⟨_, C18_type_I d0 d1 d2 d3 d4 d5 rest, ?_⟩
      unfold dateI
      split
      · exact hz
      · simp only [bits]; omega
  · by_cases h4 : size = 4
    · subst h4
      match d, hs with
      | d0 :: d1 :: d2 :: d3 :: rest, _ =>
        refine ⟨_, C18_type_F d0 d1 d2 d3 rest, ?_⟩
        unfold dateF
        split
        · exact hz
        · have hb : ∀ w lo len, bits w lo len < 2 ^ len := fun w lo len => Nat.mod_lt _ (Nat.two_pow_pos len)
          generalize leNat [d0, d1, d2, d3] = w
          have b1 := hb w 0 6
          have b2 := hb w 8 5
          have b3 := hb w 16 5
          have b4 := hb w 24 4
          have b5 := hb w 21 3
          have b6 := hb w 28 4
          have b7 := hb w 13 2
          have b8 := hb w 15 1
          by_cases hy : bits w 13 2 = 0 ∧ bits w 21 3 + 8 * bits w 28 4 ≤ 80
          · simp only [if_pos hy]; omega
          · simp only [if_neg hy]; omega
    · by_cases h2 : size = 2
      · subst h2
        match d, hs with
        | d0 :: d1 :: rest, _ =>
          refine ⟨_, C18_type_G d0 d1 rest, ?_⟩
          generalize leNat [d0, d1] = w
          have hb : ∀ w lo len, bits w lo len < 2 ^ len := fun w lo len => Nat.mod_lt _ (Nat.two_pow_pos len)
          have b1 := hb w 0 5
          have b2 := hb w 8 4
          have b3 := hb w 5 3
          have b4 := hb w 12 4
          dsimp only [dateG]
          refine ⟨?_, ?_, ?_, ?_, ?_, ?_, ?_, ?_, ?_, ?_, ?_, ?_, Or.inl rfl⟩ <;> omega
      · exact ⟨_, C18_other_size d size h2 h4 h6, hz⟩

example : tmDecode [0x1E, 0x0A, 0x59, 0x1B] 4 = .ok ⟨0, 30, 10, 25, 10, 110, 0⟩ := by decide +kernel

/-! ### C20, C21: strings and binary data -/

/-- C20: exactly `len + 1` bytes are written - the source reversed, then NUL - and nothing else changes. -/
theorem C20_str_decode (dst src : List Byte) (len : Nat) (hs : len ≤ src.length) (hd : len < dst.length) :
    strDecode dst src len = .ok ((src.take len).reverse ++ 0 :: dst.drop (len + 1)) :=
  strDecode_eq dst src len hs hd

example : strDecode [9, 9, 9, 9, 9] [67, 66, 65, 64] 3 = .ok [65, 66, 67, 0, 9] := C20_str_decode _ _ 3 (by decide) (by decide)

/-- C20: decoding the decoded string restores the source. -/
theorem C20_str_decode_twice (dst dst2 src : List Byte) (len : Nat) (hs : len ≤ src.length) (hd : len < dst.length)
    (hd2 : len < dst2.length) :
    ∃ t u, strDecode dst src len = .ok t ∧ strDecode dst2 t len = .ok u ∧ u.take len = src.take len := by
  refine ⟨_, _, C20_str_decode dst src len hs hd, C20_str_decode dst2 _ len (by simp; omega) hd2, ?_⟩
  have hl : (src.take len).reverse.length = len := by simp; omega
  rw [List.take_left' hl, List.reverse_reverse, List.take_left' (by simp; omega)]

example : strDecode [9, 9, 9, 9, 9] (cs! "abc") 3 = .ok [99, 98, 97, 0, 9] := by decide +kernel

theorem hexDump_length (l : List Byte) : (hexDump l).length = 3 * l.length - 1 := by
  fun_induction hexDump l with
  | case1 => rfl
  | case2 => rfl
  | case3 b bs h ih =>
    cases bs with
    | nil => simp at h
    | cons x xs => simp_all [fmtHex2]; omega

/-- C21: the text written is the dump of the first `k` source bytes counted from the end, where `k` is as many as fit
(`3k < maxLen`), followed by NUL; nothing at or beyond `maxLen` changes. -/
theorem C21_bin_decode (dst src : List Byte) (len maxLen : Nat) (hs : len ≤ src.length) (hm : 1 ≤ maxLen)
    (hd : maxLen ≤ dst.length) :
    ∃ k dst', binDecode dst src len maxLen = .ok dst' ∧ k = min len ((maxLen - 1) / 3) ∧
      dst'.length = dst.length ∧ dst'.drop maxLen = dst.drop maxLen ∧
      (hexDump ((src.take len).reverse.take k) ++ [0]) <+: dst' ∧
      (hexDump ((src.take len).reverse.take k)).length < maxLen := by
  obtain ⟨k, d1, hk, h1, h2, h3, h4⟩ := binLoop_eq src maxLen len [] dst hs hd (by simpa using hm) (by simp [spaced])
  simp only [List.length_nil, Nat.mul_zero, Nat.zero_add, Nat.sub_zero, List.nil_append] at hk h1 h4
  have hkl : ((src.take len).reverse.take k).length = k := by simp; omega
  have hpos : (if 3 * k > 0 then 3 * k - 1 else 3 * k) = 3 * k - 1 := by split <;> omega
  have hlen := hexDump_length ((src.take len).reverse.take k)
  rw [hkl] at hlen
  refine ⟨k, d1.set (3 * k - 1) 0, ?_, hk, by simp [h2], ?_, ?_, by omega⟩
  · unfold binDecode
    rw [h1]
    simp only [ok_bind, hpos]
    rw [wr_ok (by omega)]
  · rw [set_drop _ _ _ _ (by omega), h3]
  · rw [List.prefix_iff_eq_take]
    rw [List.length_append, hlen, List.length_singleton, set_take_succ _ _ _ (by omega)]
    congr 1
    by_cases h0 : k = 0
    · subst h0; simp [hexDump]
    · have := congrArg (List.take (3 * k - 1)) h4
      rw [List.take_take, spaced_eq _ (by intro h; rw [h] at hkl; simp at hkl; omega)] at this
      rw [List.take_left' hlen, Nat.min_eq_left (by omega)] at this
      exact this.symm

/-- room for two of the three bytes -/
example := C21_bin_decode (List.replicate 10 9) [1, 2, 3] 3 9 (by decide) (by decide) (by decide)

/-- C21: with room for three characters per byte plus one, every byte is printed. -/
theorem C21_bin_decode_lossless (dst src : List Byte) (len maxLen : Nat) (hs : len ≤ src.length)
    (hm : 3 * len + 1 ≤ maxLen) (hd : maxLen ≤ dst.length) :
    ∃ dst', binDecode dst src len maxLen = .ok dst' ∧ (hexDump (src.take len).reverse ++ [0]) <+: dst' := by
  obtain ⟨k, dst', h1, h2, _, _, h3, _⟩ := C21_bin_decode dst src len maxLen hs (by omega) hd
  have : k = len := by omega
  refine ⟨dst', h1, ?_⟩
  rw [List.take_of_length_le (by simp; omega)] at h3
  exact h3

example : binDecode (List.replicate 12 7) [0x1A, 0xFF, 0] 3 10 = .ok (cs! "00 FF 1A" ++ [0, 0, 7, 7]) := by decide +kernel
example : hexDump [0, 0xFF, 0x1A] = cs! "00 FF 1A" := by decide +kernel

/-! ### C22, C23: XML escaping -/

/-- C22: with a buffer of `maxLen ≥ 1` bytes the function writes the escaped form of a prefix of the source (whole
characters, so no entity is cut) and a NUL, all inside the buffer; it stops exactly at the first character before which fewer than
seven bytes are left; nothing beyond `maxLen` changes, and nothing after the source's NUL is read. -/
theorem C22_xml_bounds (dst s junk : List Byte) (maxLen : Nat) (hs : (0 : Byte) ∉ s) (hm : 1 ≤ maxLen)
    (hd : maxLen ≤ dst.length) :
    ∃ k dst', strXmlEncode dst (s ++ 0 :: junk) maxLen = .ok dst' ∧ k ≤ s.length ∧
      (escape (s.take k) ++ [0]) <+: dst' ∧ (escape (s.take k)).length < maxLen ∧
      dst'.length = dst.length ∧ dst'.drop maxLen = dst.drop maxLen ∧
      (k < s.length → maxLen ≤ (escape (s.take k)).length + 6) ∧
      (∀ j, j < k → (escape (s.take j)).length + 6 < maxLen) := by
  obtain ⟨k, d1, h0, h1, h2, h3, h4, h5, h6, h7⟩ := xmlLoop_eq maxLen s junk 0 dst hs hm hd
  simp only [Nat.zero_add, List.take_zero, List.nil_append] at h1 h4 h5 h6 h7
  refine ⟨k, d1.set (escape (s.take k)).length 0, ?_, h0, ?_, h5, by simp [h2], ?_, h6, h7⟩
  · unfold strXmlEncode
    rw [h1]
    simp only [ok_bind]
    rw [wr_ok (by omega)]
  · rw [List.prefix_iff_eq_take, List.length_append, List.length_singleton, set_take_succ _ _ _ (by omega), h4]
  · rw [set_drop _ _ _ _ (by omega), h3]

/-- "a<b&c" into 12 bytes -/
example := C22_xml_bounds (List.replicate 20 9) [97, 60, 98, 38, 99] [1, 2] 12 (by decide) (by decide) (by decide)

/-- C22: in particular a source whose escaped form is at least 7 bytes shorter than the buffer is written completely. -/
theorem C22_xml_complete (dst s junk : List Byte) (maxLen : Nat) (hs : (0 : Byte) ∉ s) (hm : (escape s).length + 6 < maxLen)
    (hd : maxLen ≤ dst.length) :
    ∃ dst', strXmlEncode dst (s ++ 0 :: junk) maxLen = .ok dst' ∧ (escape s ++ [0]) <+: dst' := by
  obtain ⟨k, dst', h1, h2, h3, _, _, _, h7, _⟩ := C22_xml_bounds dst s junk maxLen hs (by omega) hd
  have hk : k = s.length := by
    by_cases hk : k < s.length
    · have := h7 hk
      have h8 : (escape (s.take k)).length ≤ (escape s).length := by
        conv => rhs; rw [← List.take_append_drop k s, escape_append]
        simp
      omega
    · omega
  subst hk
  rw [List.take_length] at h3
  exact ⟨dst', h1, h3⟩

example := C22_xml_complete (List.replicate 30 9) [97, 60, 98, 38, 99] [1, 2] 25 (by decide) (by decide) (by decide)

theorem unescape_plain (c : Byte) (r : List Byte) (h : ¬ (c = 38 ∨ c = 60 ∨ c = 62 ∨ c = 34 ∨ c.toNat < 32 ∨ c.toNat = 127)) :
    unescape (c :: r) = (unescape r).map (c :: ·) := by
  rw [unescape]
  · rw [if_neg h]
  all_goals (rintro r' hc; exact absurd (.inl hc) h)

/-- C23: un-escaping the escaped text gives the source back with control characters replaced by spaces. -/
theorem C23_unescape_escape (s : List Byte) : unescape (escape s) = some (s.map blank) := by
  induction s with
  | nil => simp [escape, unescape]
  | cons c s ih =>
    rw [escape_cons, List.map_cons]
    unfold escape1
    by_cases c1 : c = 38
    · subst c1; simp [unescape, ih, blank]
    by_cases c2 : c = 60
    · subst c2; simp [unescape, ih, blank]
    by_cases c3 : c = 62
    · subst c3; simp [unescape, ih, blank]
    by_cases c4 : c = 34
    · subst c4; simp [unescape, ih, blank]
    rw [if_neg c1, if_neg c2, if_neg c3, if_neg c4]
    by_cases k : c.toNat < 32 ∨ c.toNat = 127
    · rw [if_pos k, List.singleton_append, unescape_plain _ _ (by decide), ih]
      simp [blank, k]
    · rw [if_neg k, List.singleton_append, unescape_plain _ _ (by simp only [c1, c2, c3, c4, k]; simp), ih]
      simp [blank, k]

/-- C23: the escaped text contains no markup character and no control character. -/
theorem C23_no_markup (s : List Byte) (b : Byte) (hb : b ∈ escape s) :
    b ≠ 60 ∧ b ≠ 62 ∧ b ≠ 34 ∧ 32 ≤ b.toNat ∧ b.toNat ≠ 127 := by
  have h1 : ∀ c : Byte, ∀ b ∈ escape1 c, b ≠ 60 ∧ b ≠ 62 ∧ b ≠ 34 ∧ 32 ≤ b.toNat ∧ b.toNat ≠ 127 :=
    forall_byte (by decide +kernel)
  simp only [escape, List.mem_flatMap] at hb
  obtain ⟨c, _, hc⟩ := hb
  exact h1 c b hc

example := C23_no_markup [97, 60, 7, 34] 38 (by decide)

/-- C23: two sources that print as the same XML text differ at most in control characters (so it is injective on
printable text), and if the C function had room for both, equal outputs mean equal sources up to control characters. -/
theorem C23_injective (s t : List Byte) (h : escape s = escape t) : s.map blank = t.map blank := by
  have := congrArg unescape h
  rw [C23_unescape_escape, C23_unescape_escape] at this
  simpa using this

/-- a control character and a blank are written the same way -/
example := C23_injective [97, 7, 60] [97, 32, 60] (by decide)

/-- C23 for the C function: what ends up in the buffer, up to its first NUL, un-escapes to a prefix of the blanked source
(the whole source when there was room). -/
theorem C23_output_unescapes (dst s junk : List Byte) (maxLen : Nat) (hs : (0 : Byte) ∉ s) (hm : 1 ≤ maxLen)
    (hd : maxLen ≤ dst.length) :
    ∃ dst' txt t, strXmlEncode dst (s ++ 0 :: junk) maxLen = .ok dst' ∧ (txt ++ [0]) <+: dst' ∧ (0 : Byte) ∉ txt ∧
      unescape txt = some t ∧ t <+: s.map blank ∧ ((escape s).length + 6 < maxLen → t = s.map blank) := by
  obtain ⟨k, dst', h1, h2, h3, h4, h5, h6, h7, _⟩ := C22_xml_bounds dst s junk maxLen hs hm hd
  refine ⟨dst', escape (s.take k), (s.take k).map blank, h1, h3, ?_, C23_unescape_escape _, ?_, ?_⟩
  · intro h0
    have := C23_no_markup _ _ h0
    simp at this
  · rw [List.map_take]; exact List.take_prefix _ _
  · intro hfit
    have hk : k = s.length := by
      by_cases hk : k < s.length
      · have := h7 hk
        have h8 : (escape (s.take k)).length ≤ (escape s).length := by
          conv => rhs; rw [← List.take_append_drop k s, escape_append]
          simp
        omega
      · omega
    subst hk; rw [List.take_length]

example : strXmlEncode (List.replicate 24 7) (cs! "a<b&c" ++ [0, 99]) 20 =
    .ok (cs! "a&lt;b&amp;c" ++ [0] ++ List.replicate 11 7) ∧ escape (cs! "a<b&c") = cs! "a&lt;b&amp;c" := by decide +kernel

/-! ### C24, C25: hex2bin -/

/-- C24: at most `dstLen` bytes are converted, the rest of the destination is zero and nothing beyond it changes,
for every input text. -/
theorem C24_bounds (dst src : List Byte) (dstLen : Nat) (hd : dstLen ≤ dst.length) :
    ∃ dst' n, hex2bin dst dstLen src = .ok (dst', n) ∧ n ≤ dstLen ∧ dst'.length = dst.length ∧
      dst'.drop dstLen = dst.drop dstLen ∧ (dst'.take dstLen).drop n = List.replicate (dstLen - n) 0 := by
  unfold hex2bin memset0
  rw [if_pos hd]
  simp only [ok_bind]
  obtain ⟨d', n, g1, g2, g3, g4, g5, g6, g7⟩ := hexLoop_bounds dstLen src 0 (List.replicate dstLen 0 ++ dst.drop dstLen)
    (by omega) (by simp) (by rw [List.take_left' (by simp)]; simp)
  refine ⟨d', n, g1, g3, by rw [g4]; simp; omega, by rw [g5, List.drop_left' (by simp)], g7⟩

example := C24_bounds (List.replicate 6 9) (cs! "68 03ZZ") 4 (by decide)

/-- C24: any hexadecimal text of a byte string that fits converts to exactly that byte string. -/
theorem C24_inverse (dst src bs : List Byte) (dstLen : Nat) (hd : dstLen ≤ dst.length) (h : HexText src bs)
    (hb : bs.length ≤ dstLen) :
    ∃ dst', hex2bin dst dstLen src = .ok (dst', bs.length) ∧ dst'.take bs.length = bs := by
  unfold hex2bin memset0
  rw [if_pos hd]
  simp only [ok_bind]
  have := hexLoop_text dstLen src bs [] h 0 (List.replicate dstLen 0 ++ dst.drop dstLen) (by omega) (by simp)
  rw [List.append_nil] at this
  rw [this]
  refine ⟨_, by simp only [hexLoop, Nat.zero_add]; rfl, ?_⟩
  simp

example := C24_inverse (List.replicate 6 9) (cs! "68 0a\n") [0x68, 0x0A] 4 (by decide)
  (.byte (by decide) (by decide) (.space (by decide) (.byte (by decide) (by decide) (.space (by decide) .nil)))) (by decide)

theorem hexVal_fmt : ∀ b : Byte, isXDigit (hexDigitU (b.toNat / 16)) ∧ isXDigit (hexDigitU (b.toNat % 16)) ∧
    UInt8.ofNat (hexVal (hexDigitU (b.toNat / 16)) * 16 + hexVal (hexDigitU (b.toNat % 16))) = b :=
  forall_byte (by decide +kernel)

theorem hexVal_fmtL : ∀ b : Byte, isXDigit (hexDigitL (b.toNat / 16)) ∧ isXDigit (hexDigitL (b.toNat % 16)) ∧
    UInt8.ofNat (hexVal (hexDigitL (b.toNat / 16)) * 16 + hexVal (hexDigitL (b.toNat % 16))) = b :=
  forall_byte (by decide +kernel)

/-- The dumps the library prints ("XX XX XX"), and plain "xxxx" in lower case, are hexadecimal texts. -/
theorem hexText_dump (bs : List Byte) : HexText (hexDump bs) bs := by
  fun_induction hexDump bs with
  | case1 => exact .nil
  | case2 b =>
    obtain ⟨h1, h2, h3⟩ := hexVal_fmt b
    have := HexText.byte h1 h2 .nil
    rw [h3] at this; exact this
  | case3 b bs _ ih =>
    obtain ⟨h1, h2, h3⟩ := hexVal_fmt b
    have := HexText.byte h1 h2 (.space (c := 32) (by decide) ih)
    rw [h3] at this; exact this

theorem hexText_lower (bs : List Byte) : HexText (bs.flatMap fmtHex2L) bs := by
  induction bs with
  | nil => exact .nil
  | cons b bs ih =>
    obtain ⟨h1, h2, h3⟩ := hexVal_fmtL b
    have := HexText.byte h1 h2 ih
    rw [h3] at this; exact this

/-- C24: `mbus_hex2bin` inverts both the spaced upper-case dump and the compact lower-case one, for every byte string. -/
theorem C24_inverts_dumps (bs dst : List Byte) (hd : bs.length ≤ dst.length) :
    (∃ d, hex2bin dst bs.length (hexDump bs) = .ok (d, bs.length) ∧ d.take bs.length = bs) ∧
    (∃ d, hex2bin dst bs.length (bs.flatMap fmtHex2L) = .ok (d, bs.length) ∧ d.take bs.length = bs) :=
  ⟨C24_inverse dst _ bs _ hd (hexText_dump bs) (Nat.le_refl _), C24_inverse dst _ bs _ hd (hexText_lower bs) (Nat.le_refl _)⟩

example : hex2bin [1, 1, 1, 1] 3 (cs! "1A  fF") = .ok ([0x1A, 0xFF, 0, 1], 2) := by decide +kernel

/-- C25 is violated: in "5G" the pair is not two hex digits, yet a byte (0x05) is produced; likewise "-1" gives 0xFF. -/
theorem C25_invalid_pair_violation :
    ¬ ∀ (dst : List Byte) (dstLen : Nat) (c0 c1 : Byte) (rest : List Byte), dstLen ≤ dst.length → isSpace c0 = false →
      ¬ (isXDigit c0 = true ∧ isXDigit c1 = true) →
      ∃ d, hex2bin dst dstLen (c0 :: c1 :: rest) = .ok (d, 0) := by
  intro h
  obtain ⟨d, hd⟩ := h [0] 1 0x35 0x47 [] (by decide) (by decide) (by decide)
  have : hex2bin [0] 1 [0x35, 0x47] = .ok ([5], 1) := by decide +kernel
  rw [this] at hd
  simp at hd

example : hex2bin [0] 1 (cs! "-1") = .ok ([0xFF], 1) := by decide +kernel

/-- C25, what holds: after any well-formed text, a pair whose first character is not a hex digit, white space or sign
stops the conversion there, and so does a pair that starts with a sign not followed by a digit. Missing: pairs
`digit,non-digit` and `sign,digit`, which are converted (`C25_invalid_pair_violation`). -/
theorem C25_stops_partial (dst src bs rest : List Byte) (dstLen : Nat) (hd : dstLen ≤ dst.length) (h : HexText src bs)
    (hb : bs.length ≤ dstLen) (c0 c1 : Byte) (hx : isXDigit c0 = false) (hsp : isSpace c0 = false)
    (hc : (c0 ≠ 43 ∧ c0 ≠ 45) ∨ isXDigit c1 = false) :
    ∃ d, hex2bin dst dstLen (src ++ c0 :: c1 :: rest) = .ok (d, bs.length) ∧ d.take bs.length = bs := by
  unfold hex2bin memset0
  rw [if_pos hd]
  simp only [ok_bind]
  rw [hexLoop_text dstLen src bs (c0 :: c1 :: rest) h 0 (List.replicate dstLen 0 ++ dst.drop dstLen) (by omega) (by simp)]
  have hn : strtoul2 c0 c1 = none := by
    unfold strtoul2
    rcases hc with ⟨a, b⟩ | hc
    · simp [hx, hsp, a, b]
    · simp [hx, hsp, hc]
  rw [hexLoop, hn]
  refine ⟨_, by simp [hsp]; rfl, ?_⟩
  simp

example : hex2bin [1, 1] 2 (cs! "1A G5") = .ok ([0x1A, 0], 1) := by decide +kernel

end Mbus
