import Verif.Lemmas.Double
import Verif.Spec.Value
import Verif.Lemmas.Units
import Verif.Props.Text
import Verif.Props.Codec
/- Lemmas for the value decoders. -/
namespace Mbus
open Spec

theorem decDigits_length (n w : Nat) (hw : 1 ≤ w) (h : n < 10 ^ w) : (decDigits n).length ≤ w := by
  have := congrArg List.length (padZero_dec w n hw h)
  rw [decW_length] at this
  simp only [padZero, List.length_append, List.length_replicate] at this
  omega

theorem hexDigits_length (n w : Nat) (hw : 1 ≤ w) (h : n < 16 ^ w) : (hexDigits n).length ≤ w := by
  have := congrArg List.length (padZero_hex w n hw h)
  rw [hexW_length] at this
  simp only [padZero, List.length_append, List.length_replicate] at this
  omega

theorem decDigits_digit (n : Nat) : ∀ c ∈ decDigits n, 48 ≤ c.toNat ∧ c.toNat ≤ 57 := by
  fun_induction decDigits n with
  | case1 n h =>
    intro c hc
    rw [List.mem_singleton.mp hc, UInt8.toNat_ofNat_of_lt' (show _ < 256 by omega)]
    omega
  | case2 n h ih =>
    intro c hc
    rcases List.mem_append.mp hc with hc | hc
    · exact ih c hc
    · rw [List.mem_singleton.mp hc, UInt8.toNat_ofNat_of_lt' (show _ < 256 by omega)]
      omega

theorem hexDigitU_pos : ∀ n : Fin 16, hexDigitU n.val ≠ 0 := by decide +kernel

theorem hexDigits_nonul (n : Nat) : (0 : Byte) ∉ hexDigits n := by
  fun_induction hexDigits n with
  | case1 n h => intro hc; simp at hc; exact hexDigitU_pos ⟨n, h⟩ hc.symm
  | case2 n h ih =>
    intro hc
    rcases List.mem_append.mp hc with hc | hc
    · exact ih hc
    · simp at hc; exact hexDigitU_pos ⟨n % 16, by omega⟩ hc.symm

theorem decDigits_nonul (n : Nat) : (0 : Byte) ∉ decDigits n := fun h => by
  have := decDigits_digit n 0 h; simp at this

theorem fmtInt_nonul (z : Int) : (0 : Byte) ∉ fmtInt z := by
  unfold fmtInt
  split
  · intro h; rcases List.mem_cons.mp h with h | h
    · simp at h
    · exact decDigits_nonul _ h
  · exact decDigits_nonul _

theorem fmtInt_length64 (z : Int) (h : z.natAbs < 10 ^ 19) : (fmtInt z).length ≤ 20 := by
  have := decDigits_length z.natAbs 19 (by decide) h
  unfold fmtInt
  split <;> simp <;> omega

/-! ### digits -/

theorem fmtPad2 (z : Int) (h0 : 0 ≤ z) (h : z < 100) : fmtPad 2 z = dec2 z.toNat := by
  unfold fmtPad
  rw [if_neg (by omega), padZero_dec 2 _ (by decide) (by omega)]
  have e : z.natAbs = z.toNat := by omega
  rw [e]; simp [decW, dec2]

theorem fmtPad4 (z : Int) (h0 : 0 ≤ z) (h : z < 10000) : fmtPad 4 z = dec4 z.toNat := by
  unfold fmtPad
  rw [if_neg (by omega), padZero_dec 4 _ (by decide) (by omega)]
  have e : z.natAbs = z.toNat := by omega
  rw [e]
  simp only [decW, dec4, dec2, List.nil_append, List.cons_append, Nat.div_div_eq_div_mul]

@[simp] theorem dec2_length (n : Nat) : (dec2 n).length = 2 := rfl
@[simp] theorem dec4_length (n : Nat) : (dec4 n).length = 4 := rfl

theorem dec2_nonul (n : Nat) : (0 : Byte) ∉ dec2 n := by
  have h : ∀ k : Fin 10, (0 : Byte) ≠ UInt8.ofNat (48 + k.val) := by decide +kernel
  intro hc
  simp only [dec2, List.mem_cons, List.not_mem_nil, or_false] at hc
  rcases hc with hc | hc
  · exact h ⟨n / 10 % 10, by omega⟩ hc
  · exact h ⟨n % 10, by omega⟩ hc

/-- fields in the ranges of `C18_ranges` -/
def TmOk (t : Tm) : Prop := 0 ≤ t.sec ∧ t.sec ≤ 63 ∧ 0 ≤ t.min ∧ t.min ≤ 63 ∧ 0 ≤ t.hour ∧ t.hour ≤ 31 ∧
      0 ≤ t.mday ∧ t.mday ≤ 31 ∧ -1 ≤ t.mon ∧ t.mon ≤ 14 ∧ 0 ≤ t.year ∧ t.year ≤ 427

theorem tmDecode_ok (d : List Byte) (size : Nat) (hs : size ≤ d.length) (t : Tm) (h : tmDecode d size = .ok t) : TmOk t := by
  obtain ⟨t', h', hr⟩ := C18_ranges d size hs
  rw [h] at h'; injection h' with h'; subst h'
  exact ⟨hr.1, hr.2.1, hr.2.2.1, hr.2.2.2.1, hr.2.2.2.2.1, hr.2.2.2.2.2.1, hr.2.2.2.2.2.2.1, hr.2.2.2.2.2.2.2.1,
    hr.2.2.2.2.2.2.2.2.1, hr.2.2.2.2.2.2.2.2.2.1, hr.2.2.2.2.2.2.2.2.2.2.1, hr.2.2.2.2.2.2.2.2.2.2.2.1⟩

theorem fmtDate_eq (t : Tm) (h : TmOk t) : fmtDate t = .ok (dateText t) := by
  obtain ⟨_, _, _, _, _, _, h1, h2, h3, h4, h5, h6⟩ := h
  unfold fmtDate
  rw [int32_ok _ (by omega) (by omega)]
  simp only [ok_bind]
  rw [int32_ok _ (by omega) (by omega)]
  simp only [ok_bind]
  rw [fmtPad4 _ (by omega) (by omega), fmtPad2 _ (by omega) (by omega), fmtPad2 _ (by omega) (by omega)]
  rfl

theorem fmtDateTime_eq (t : Tm) (h : TmOk t) : fmtDateTime t = .ok (dateTimeText t) := by
  unfold fmtDateTime
  rw [fmtDate_eq t h]
  obtain ⟨h1, h2, h3, h4, h5, h6, _⟩ := h
  simp only [ok_bind]
  rw [fmtPad2 _ (by omega) (by omega), fmtPad2 _ (by omega) (by omega), fmtPad2 _ (by omega) (by omega)]
  rfl

@[simp] theorem dateText_length (t : Tm) : (dateText t).length = 10 := by simp [dateText]
@[simp] theorem dateTimeText_length (t : Tm) : (dateTimeText t).length = 19 := by simp [dateTimeText]

theorem dateText_nonul (t : Tm) : (0 : Byte) ∉ dateText t := by
  simp only [dateText, dec4, List.mem_append, dec2_nonul, List.mem_cons, List.not_mem_nil, or_false, false_or, not_or]
  decide
theorem dateTimeText_nonul (t : Tm) : (0 : Byte) ∉ dateTimeText t := by
  simp only [dateTimeText, List.mem_append, dec2_nonul, dateText_nonul, List.mem_cons, List.not_mem_nil, or_false, false_or, not_or]
  decide

/-! ### reals -/

theorem rat_div_nonneg {a b : Rat} (ha : 0 ≤ a) (hb : 0 < b) : 0 ≤ a / b := by
  rw [Rat.div_def]
  exact Rat.mul_nonneg ha (Rat.le_of_lt (Rat.inv_pos.mpr hb))

theorem ieee32_lt (w : Nat) (neg : Bool) (m : Rat) (h : ieee32 w = .fin neg m) : 0 ≤ m ∧ m < 2 ^ 128 := by
  unfold ieee32 at h
  simp only at h
  have hm : w % 2 ^ 23 < 2 ^ 23 := Nat.mod_lt _ (by decide)
  have he : w / 2 ^ 23 % 256 < 256 := Nat.mod_lt _ (by decide)
  generalize w % 2 ^ 23 = f at h hm
  generalize w / 2 ^ 23 % 256 = e at h he
  split at h
  · split at h <;> simp at h
  · split at h
    · injection h with _ h
      subst h
      refine ⟨rat_div_nonneg Rat.natCast_nonneg (by decide +kernel), ?_⟩
      rw [Rat.div_lt_iff (by decide +kernel)]
      exact Std.lt_trans (Rat.natCast_lt_natCast.mpr hm) (by decide +kernel)
    · injection h with _ h
      subst h
      have e1 : (((2 ^ 23 + f : Nat) : Rat) * 2 ^ e) = (((2 ^ 23 + f) * 2 ^ e : Nat) : Rat) := by
        rw [Rat.natCast_mul, Rat.natCast_pow]; rfl
      rw [e1]
      refine ⟨rat_div_nonneg Rat.natCast_nonneg (by decide +kernel), ?_⟩
      rw [Rat.div_lt_iff (by decide +kernel)]
      have e2 : (2 ^ 128 * 2 ^ 150 : Rat) = ((2 ^ 128 * 2 ^ 150 : Nat) : Rat) := by decide +kernel
      rw [e2]
      have : (2 ^ 23 + f) * 2 ^ e < 2 ^ 24 * 2 ^ 254 :=
        Nat.lt_of_lt_of_le (Nat.mul_lt_mul_of_pos_right (by omega) (Nat.two_pow_pos _))
          (Nat.mul_le_mul_left _ (Nat.pow_le_pow_right (by decide) (by omega)))
      exact Rat.natCast_lt_natCast.mpr (by omega)

theorem fmtF_length (w : Nat) : (fmtF (ieee32 w)).length ≤ 60 := by
  cases h : ieee32 w with
  | inf neg => cases neg <;> decide
  | nan neg => cases neg <;> decide
  | fin neg m =>
    obtain ⟨h0, h1⟩ := ieee32_lt w neg m h
    have hb : roundEven (m * 1000000) ≤ 2 ^ 128 * 1000000 := by
      refine roundEven_le _ _ (Rat.mul_nonneg h0 (by decide)) ?_
      rw [Rat.natCast_mul]
      have : ((2 ^ 128 : Nat) : Rat) = 2 ^ 128 := by decide +kernel
      rw [this]
      exact Rat.mul_lt_mul_of_pos_right h1 (by decide)
    have a := decDigits_length (roundEven (m * 1000000) / 1000000) 40 (by decide) (by omega)
    have b := congrArg List.length (padZero_dec 6 (roundEven (m * 1000000) % 1000000) (by decide) (by omega))
    rw [decW_length] at b
    simp only [fmtF, List.length_append, b, List.length_cons, List.length_nil]
    split <;> simp <;> omega

theorem fmtF_nonul (x : Flt) : (0 : Byte) ∉ fmtF x := by
  have s : ∀ neg : Bool, (0 : Byte) ∉ (if neg then [45] else [] : List Byte) := by decide
  cases x with
  | inf neg => simp only [fmtF, List.mem_append, s, false_or]; decide
  | nan neg => simp only [fmtF, List.mem_append, s, false_or]; decide
  | fin neg m =>
    simp only [fmtF, List.mem_append, s, false_or, decDigits_nonul, padZero, or_false, not_or]
    refine ⟨by decide, fun h => ?_⟩
    have := List.eq_of_mem_replicate h
    simp at this

/-! ### numbers -/

theorem leInt_bound (l : List Byte) (h : l.length ≤ 8) : (leInt l).natAbs < 10 ^ 19 := by
  have h1 := leNat_lt l
  have h2 : (256 : Nat) ^ l.length ≤ 256 ^ 8 := Nat.pow_le_pow_right (by decide) h
  unfold leInt
  have e : ((256 : Int) ^ l.length) = ((256 ^ l.length : Nat) : Int) := by simp
  rw [e]
  split <;> omega

theorem foldr_bcdVal (l : List Byte) :
    l.foldr (fun b v => b.toNat % 16 + 10 * (if b.toNat / 16 < 10 then b.toNat / 16 else 0) + 100 * v) 0 = bcdVal l := by
  induction l with
  | nil => rfl
  | cons b bs ih => rw [List.foldr_cons, ih]; rfl

theorem bcdDecode_value (d : List Byte) (n : Nat) (h1 : 1 ≤ n) (h9 : n ≤ 9) (hs : n ≤ d.length) :
    bcdDecode d n = .ok (bcdValue (d.take n)) := by
  rw [bcdDecode_eq d n h1 h9 hs]
  unfold bcdValue
  simp only [foldr_bcdVal]
  have e : (d.take n).getLastD 0 = d[n - 1]'(by omega) := by
    rw [List.getLastD_eq_getLast?, List.getLast?_eq_getElem?, List.length_take, Nat.min_eq_left hs,
      List.getElem?_take_of_lt (by omega), List.getElem?_eq_getElem (by omega)]
    rfl
  rw [e]

theorem bcdValue_bound (l : List Byte) : (bcdValue l).natAbs ≤ bcdVal l := by
  unfold bcdValue
  simp only [foldr_bcdVal]
  split <;> omega

theorem toInt32_id (z : Int) (h : z.natAbs < 2147483648) : toInt32 z = z := by
  unfold toInt32; omega

theorem bcdVal_small (l : List Byte) (h : l.length ≤ 4) : bcdVal l < 2147483648 := by
  have a := bcdVal_bound l
  have b : (100 : Nat) ^ l.length ≤ 100 ^ 4 := Nat.pow_le_pow_right (by decide) h
  omega

theorem bcdText_eq (r : Record) (n : Nat) (h1 : 1 ≤ n) (h4 : n ≤ 4) :
    bcdText r n = .ok (if ErrorState r then hexDigits (leNat (r.data.bytes.take n)) else fmtInt (bcdValue (r.data.bytes.take n))) := by
  have hl : n ≤ r.data.bytes.length := by rw [Buf.length_bytes]; omega
  have htl : (r.data.bytes.take n).length = n := by rw [List.length_take]; omega
  have he : (r.dif &&& 0x30 = 0x30) ↔ ErrorState r :=
    forall_byte (P := fun b => (b &&& 0x30 = 0x30) ↔ b.toNat / 16 % 4 = 3) (by decide +kernel) r.dif
  unfold bcdText
  by_cases h : ErrorState r
  · rw [if_pos (he.mpr h), if_pos h, bcdDecodeHex_eq _ n (by omega) hl]
    simp only [ok_bind]
    have hb := leNat_lt (r.data.bytes.take n)
    have hp : (256 : Nat) ^ (r.data.bytes.take n).length ≤ 256 ^ 4 := Nat.pow_le_pow_right (by decide) (by omega)
    have e : (toInt32 (leNat (r.data.bytes.take n) : Int) % 4294967296).toNat = leNat (r.data.bytes.take n) := by
      unfold toInt32
      omega
    rw [e]
  · rw [if_neg (fun c => h (he.mp c)), if_neg h, bcdDecode_value _ n h1 (by omega) hl]
    simp only [ok_bind]
    rw [toInt32_id _ (Nat.lt_of_le_of_lt (bcdValue_bound _) (bcdVal_small _ (by omega)))]

/-! ### dates -/

theorem tmDecode_G (d : List Byte) (h : 2 ≤ d.length) : tmDecode d 2 = .ok (dateG (leNat (d.take 2))) := by
  match d, h with
  | d0 :: d1 :: rest, _ => exact C18_type_G d0 d1 rest
theorem tmDecode_F (d : List Byte) (h : 4 ≤ d.length) : tmDecode d 4 = .ok (dateF (leNat (d.take 4))) := by
  match d, h with
  | d0 :: d1 :: d2 :: d3 :: rest, _ => exact C18_type_F d0 d1 d2 d3 rest
theorem tmDecode_I (d : List Byte) (h : 6 ≤ d.length) : tmDecode d 6 = .ok (dateI (leNat (d.take 6))) := by
  match d, h with
  | d0 :: d1 :: d2 :: d3 :: d4 :: d5 :: rest, _ => exact C18_type_I d0 d1 d2 d3 d4 d5 rest

theorem isDateTime_iff (r : Record) (hk : r.dif.toNat % 16 = 4 ∨ r.dif.toNat % 16 = 6) :
    isDateTime r (r.vife.bytes[0]'(by simp)) = true ↔ IsDateTime r := by
  have e : r.vife.bytes.headD 0 = r.vife.bytes[0]'(by simp) := by
    rw [List.headD_eq_head?_getD, List.head?_eq_getElem?, List.getElem?_eq_getElem (by simp)]; rfl
  have f : ∀ b c : Byte, c.toNat < 128 → ((b &&& 0x7F = c) ↔ b.toNat % 128 = c.toNat) := by
    intro b c hc
    have h : (b &&& 0x7F).toNat = b.toNat % 128 := forall_byte (P := fun b => (b &&& 0x7F).toNat = b.toNat % 128) (by decide +kernel) b
    rw [← h]; exact UInt8.toNat_inj.symm
  unfold isDateTime IsDateTime
  rw [e]
  simp only [Bool.or_eq_true, Bool.and_eq_true, decide_eq_true_eq, f _ 0x6D (by decide), f _ 0x30 (by decide), f _ 0x70 (by decide)]
  have e1 : (0x6D : Byte).toNat = 0x6D := rfl
  have e2 : (0x30 : Byte).toNat = 0x30 := rfl
  have e3 : (0x70 : Byte).toNat = 0x70 := rfl
  rw [e1, e2, e3]
  constructor
  · rintro ((h | h) | h)
    · exact ⟨hk, .inl h⟩
    · exact ⟨hk, .inr ⟨h.1, .inl h.2⟩⟩
    · exact ⟨hk, .inr ⟨h.1, .inr h.2⟩⟩
  · rintro ⟨_, h | ⟨h, h' | h'⟩⟩
    · exact .inl (.inl h)
    · exact .inl (.inr ⟨h, h'⟩)
    · exact .inr ⟨h, h'⟩

theorem isDate_iff (r : Record) (hk : r.dif.toNat % 16 = 2) : (r.vif &&& 0x7F = 0x6C) ↔ IsDate r := by
  have h : ∀ b : Byte, (b &&& 0x7F = 0x6C) ↔ b.toNat % 128 = 0x6C := forall_byte (by decide +kernel)
  unfold IsDate
  rw [h]
  exact ⟨fun h => ⟨hk, h⟩, fun h => h.2⟩

theorem floatDecode_eq (d : List Byte) (h : 4 ≤ d.length) : floatDecode d = .ok (ieee32 (leNat (d.take 4))) := by
  match d, h with
  | d0 :: d1 :: d2 :: d3 :: rest, _ =>
    simp only [floatDecode, floatDecodeHost, rd, List.getElem?_cons_zero, List.getElem?_cons_succ, ok_bind, List.take_succ_cons,
      List.take_zero, leNat]
    congr 2
    simp only [Bool.false_eq_true, if_false]
    omega

/-! ### the two decoders -/

/-- result of a call that leaves the text `t` in a buffer of 768 bytes -/
def Leaves (x : C (List Byte)) (t : List Byte) : Prop := ∃ b, x = .ok b ∧ b.length = 768 ∧ t ++ [0] <+: b

theorem print_leaves (buff t : List Byte) (hb : buff.length = 768) (ht : t.length < 768) :
    Leaves (snprintfAt buff 0 768 t) t := by
  refine ⟨_, snprintfAt_ok buff 0 768 t ht (by omega), ?_, ?_⟩
  · simp; omega
  · simp

theorem str_leaves (buff src : List Byte) (n : Nat) (hb : buff.length = 768) (hs : n ≤ src.length) (hn : n < 768) :
    Leaves (strDecode buff src n) (src.take n).reverse := by
  refine ⟨_, strDecode_eq buff src n hs (by omega), ?_, ?_⟩
  · simp; omega
  · refine ⟨buff.drop (n + 1), ?_⟩; simp

theorem bin_leaves (buff src : List Byte) (n : Nat) (hb : buff.length = 768) (hs : n ≤ src.length) (hn : 3 * n < 768) :
    Leaves (binDecode buff src n 768) (hexDump (src.take n).reverse) := by
  obtain ⟨k, b, h1, h2, h3, h4, h5, h6⟩ := C21_bin_decode buff src n 768 hs (by omega) (by omega)
  have hk : k = n := by omega
  refine ⟨b, h1, by omega, ?_⟩
  rw [hk, List.take_of_length_le (by simp; omega)] at h5
  exact h5

theorem sizePred_eq (n : Nat) (h1 : 1 ≤ n) (h : n ≤ 234) : sizePred n = n - 1 := by
  unfold sizePred; omega

theorem nibble_eq (b : Byte) : (b &&& 0x0F).toNat = b.toNat % 16 :=
  forall_byte (P := fun b => (b &&& 0x0F).toNat = b.toNat % 16) (by decide +kernel) b

theorem lvar_le (b : Byte) : (b ≤ 0xBF) ↔ b.toNat ≤ 0xBF := UInt8.le_iff_toNat_le

theorem headD_data (r : Record) : r.data.bytes.headD 0 = r.data.bytes[0]'(by simp) := by
  rw [List.headD_eq_head?_getD, List.head?_eq_getElem?, List.getElem?_eq_getElem (by simp)]; rfl

theorem bcd_big (l : List Byte) (h : l.length ≤ 9) : (bcdValue l).natAbs < 10 ^ 19 := by
  have h1 := bcdValue_bound l
  have h2 := bcdVal_lt l h
  omega

theorem hex_short (l : List Byte) (h : l.length ≤ 8) : (hexDigits (leNat l)).length ≤ 16 := by
  refine hexDigits_length _ 16 (by decide) (Nat.lt_of_lt_of_le (leNat_lt _) ?_)
  have : (256 : Nat) ^ l.length ≤ 256 ^ 8 := Nat.pow_le_pow_right (by decide) h
  omega

theorem leNat6_mod (l : List Byte) (h : l.length = 6) : ((leNat l : Int) % 2 ^ 64).toNat = leNat l := by
  have hb' := leNat_lt l
  rw [h] at hb'
  omega

/-- The text left in the static buffer. -/
theorem recordDecode_leaves (buff : List Byte) (r : Record) (hb : buff.length = 768) (hn : r.dataLen ≤ 234)
    (h1 : r.dif.toNat % 16 = 0xD → 1 ≤ r.dataLen) : Leaves (recordDecode buff r) (shown r) := by
  have hl : r.data.bytes.length = 234 := r.data.length_bytes
  have P := print_leaves buff
  have I : ∀ n, 1 ≤ n → n ≤ 4 → Leaves (do
      let (_, v) ← intDecode r.data.bytes n
      snprintfAt buff 0 768 (fmtInt v)) (fmtInt (leInt (r.data.bytes.take n))) := by
    intro n h1 h4
    rw [C12_int_decode _ n h1 h4 (by omega)]
    have := fmtInt_length64 _ (leInt_bound (r.data.bytes.take n) (by simp; omega))
    exact P _ hb (by omega)
  have L : ∀ n, 1 ≤ n → n ≤ 8 → Leaves (do
      let (_, v) ← longLongDecode r.data.bytes n
      snprintfAt buff 0 768 (fmtInt v)) (fmtInt (leInt (r.data.bytes.take n))) := by
    intro n h1 h8
    rw [C12_long_long_decode _ n h1 h8 (by omega)]
    have := fmtInt_length64 _ (leInt_bound (r.data.bytes.take n) (by simp; omega))
    exact P _ hb (by omega)
  have hv : ∀ n, n ≤ 9 → (bcdValue (r.data.bytes.take n)).natAbs < 10 ^ 19 := fun n hn => bcd_big _ (by simp; omega)
  have hx : ∀ n, 1 ≤ n → n ≤ 7 → (hexDigits (leNat (r.data.bytes.take n))).length ≤ 16 := fun n h1 hn => hex_short _ (by simp; omega)
  have B : ∀ n, 1 ≤ n → n ≤ 4 → Leaves (do
      let s ← bcdText r n
      snprintfAt buff 0 768 s) (if ErrorState r then hexDigits (leNat (r.data.bytes.take n)) else fmtInt (bcdValue (r.data.bytes.take n))) := by
    intro n h1 h4
    rw [bcdText_eq r n h1 h4]
    refine P _ hb ?_
    split
    · have := hx n h1 (by omega); omega
    · have := fmtInt_length64 _ (hv n (by omega)); omega
  unfold recordDecode shown meaning
  rw [rd0, nibble_eq]
  simp only [ok_bind]
  have hk : r.dif.toNat % 16 < 16 := Nat.mod_lt _ (by decide)
  have i4 := isDateTime_iff r
  generalize hK : r.dif.toNat % 16 = k at *
  match k, hk with
  | 0, _ =>
    refine ⟨_, wr_ok (by omega), by simp [hb], ?_⟩
    cases buff with
    | nil => exact absurd hb (by simp)
    | cons x xs => simp
  | 1, _ =>
    simp only
    exact I 1 (by decide) (by decide)
  | 2, _ =>
    simp only
    have h' := isDate_iff r hK
    by_cases h : IsDate r
    · have hG := tmDecode_G r.data.bytes (by omega)
      generalize dateG (leNat (r.data.bytes.take 2)) = t at hG ⊢
      rw [if_pos (h'.mpr h), if_pos h, hG, ok_bind, fmtDate_eq _ (tmDecode_ok _ 2 (by omega) _ hG), ok_bind]
      exact P _ hb (by rw [dateText_length]; decide)
    · rw [if_neg (fun c => h (h'.mp c)), if_neg h]
      exact I 2 (by decide) (by decide)
  | 3, _ =>
    simp only
    exact I 3 (by decide) (by decide)
  | 4, _ =>
    simp only
    by_cases h : IsDateTime r
    · rw [if_pos ((i4 (.inl rfl)).mpr h), if_pos h, tmDecode_F _ (by omega)]
      simp only [ok_bind]
      rw [fmtDateTime_eq _ (tmDecode_ok _ 4 (by omega) _ (tmDecode_F _ (by omega)))]
      simp only [ok_bind]
      exact P _ hb (by rw [dateTimeText_length]; decide)
    · rw [if_neg (fun c => h ((i4 (.inl rfl)).mp c)), if_neg h]
      exact I 4 (by decide) (by decide)
  | 5, _ =>
    simp only
    rw [floatDecode_eq _ (by omega)]
    simp only [ok_bind]
    have := fmtF_length (leNat (r.data.bytes.take 4))
    exact P _ hb (by omega)
  | 6, _ =>
    simp only
    by_cases h : IsDateTime r
    · rw [if_pos ((i4 (.inr rfl)).mpr h), if_pos h, tmDecode_I _ (by omega)]
      simp only [ok_bind]
      rw [fmtDateTime_eq _ (tmDecode_ok _ 6 (by omega) _ (tmDecode_I _ (by omega)))]
      simp only [ok_bind]
      exact P _ hb (by rw [dateTimeText_length]; decide)
    · rw [if_neg (fun c => h ((i4 (.inr rfl)).mp c)), if_neg h]
      exact L 6 (by decide) (by decide)
  | 7, _ =>
    simp only
    exact L 8 (by decide) (by decide)
  | 8, _ =>
    simp only
    exact P _ hb (by simp [fmtHex2L])
  | 9, _ =>
    simp only
    exact B 1 (by decide) (by decide)
  | 10, _ =>
    simp only
    exact B 2 (by decide) (by decide)
  | 11, _ =>
    simp only
    exact B 3 (by decide) (by decide)
  | 12, _ =>
    simp only
    exact B 4 (by decide) (by decide)
  | 13, _ =>
    have h1 := h1 rfl
    simp only
    rw [rd_ok (by omega), headD_data, sizePred_eq _ h1 hn]
    simp only [ok_bind]
    have e : (r.data.bytes.take r.dataLen).drop 1 = (r.data.bytes.drop 1).take (r.dataLen - 1) := by
      rw [List.drop_take]
    by_cases h : (r.data.bytes[0]'(by simp)).toNat ≤ 0xBF
    · rw [if_pos ((lvar_le _).mpr h), if_pos h, e]
      exact str_leaves buff _ _ hb (by simp; omega) (by omega)
    · rw [if_neg (fun c => h ((lvar_le _).mp c)), if_neg h, e]
      exact bin_leaves buff _ _ hb (by simp; omega) (by omega)
  | 14, _ =>
    simp only
    have he : (r.dif &&& 0x30 = 0x30) ↔ ErrorState r :=
      forall_byte (P := fun b => (b &&& 0x30 = 0x30) ↔ b.toNat / 16 % 4 = 3) (by decide +kernel) r.dif
    by_cases h : ErrorState r
    · rw [if_pos (he.mpr h), if_pos h, bcdDecodeHex_eq _ 6 (by decide) (by omega)]
      simp only [ok_bind]
      rw [leNat6_mod _ (by simp)]
      have := hx 6 (by decide) (by decide)
      exact P _ hb (by omega)
    · rw [if_neg (fun c => h (he.mp c)), if_neg h, bcdDecode_value _ 6 (by decide) (by decide) (by omega)]
      simp only [ok_bind]
      have := fmtInt_length64 _ (hv 6 (by decide))
      exact P _ hb (by omega)
  | 15, _ =>
    simp only
    exact bin_leaves buff _ _ hb (by omega) (by omega)
  | n + 16, h => exact absurd h (by omega)

theorem takeWhile_nul (t rest : List Byte) : (t ++ 0 :: rest).takeWhile (· ≠ 0) = t.takeWhile (· ≠ 0) := by
  induction t with
  | nil => simp
  | cons x xs ih =>
    by_cases hx : x = 0
    · subst hx; simp
    · simp [hx]; simpa using ih

theorem cstr_prefix (t b : List Byte) (h : t ++ [0] <+: b) : cstr b = .ok (upToNul t) := by
  obtain ⟨rest, rfl⟩ := h
  unfold cstr upToNul
  rw [if_pos (by simp)]
  congr 1
  rw [List.append_assoc, List.singleton_append]
  exact takeWhile_nul t rest

theorem upToNul_eq (t : List Byte) (h : (0 : Byte) ∉ t) : upToNul t = t := by
  unfold upToNul
  induction t with
  | nil => rfl
  | cons x xs ih =>
    have hx : x ≠ 0 := fun e => h (by simp [e])
    rw [List.takeWhile_cons_of_pos (by simpa using hx), ih (fun c => h (by simp [c]))]

theorem recordValue_shown (buff : List Byte) (r : Record) (hb : buff.length = 768) (hn : r.dataLen ≤ 234)
    (h1 : r.dif.toNat % 16 = 0xD → 1 ≤ r.dataLen) : recordValue buff r = .ok (upToNul (shown r)) := by
  obtain ⟨b, h2, h3, h4⟩ := recordDecode_leaves buff r hb hn h1
  unfold recordValue
  rw [h2, ok_bind, cstr_prefix _ _ h4, ok_bind]
  unfold snp
  rw [List.take_of_length_le]
  have := h4.length_le
  have := (List.takeWhile_sublist (fun x : Byte => decide (x ≠ 0)) (l := shown r)).length_le
  simp only [List.length_append, List.length_cons, List.length_nil] at *
  unfold upToNul
  omega

theorem hexDump_nonul (l : List Byte) : (0 : Byte) ∉ hexDump l := by
  have hf : ∀ b : Byte, (0 : Byte) ∉ fmtHex2 b := forall_byte (by decide +kernel)
  fun_induction hexDump l with
  | case1 => simp
  | case2 b => exact hf b
  | case3 b bs h ih =>
    simp only [List.mem_append, List.mem_cons, hf, ih, or_false, false_or]
    decide

/-! ### the normalising decoder -/

@[simp] theorem malloc_length (junk : Nat → Byte) (n : Nat) : (malloc junk n).length = n := by simp [malloc]

theorem printed_exact (junk : Nat → Byte) (s : List Byte) :
    snprintfAt (malloc junk (s.length + 1)) 0 (s.length + 1) s = .ok (s ++ [0]) := by
  rw [snprintfAt_ok _ 0 _ s (by omega) (by simp)]
  simp [List.drop_of_length_le]

theorem bin_exact (junk : Nat → Byte) (src : List Byte) (n : Nat) (hs : n ≤ src.length) :
    ∃ m, binDecode (malloc junk (3 * n + 1)) src n (3 * n + 1) = .ok m ∧ m.length = 3 * n + 1 ∧
      hexDump (src.take n).reverse ++ [0] <+: m := by
  obtain ⟨k, b, h1, h2, h3, h4, h5, h6⟩ := C21_bin_decode (malloc junk (3 * n + 1)) src n (3 * n + 1) hs (by omega) (by simp)
  have hk : k = n := by omega
  refine ⟨b, h1, by simpa using h3, ?_⟩
  rw [hk, List.take_of_length_le (by simp; omega)] at h5
  exact h5

/-- what the size field must be -/
def sizeFor : Meaning → Int
  | .date _ => 10
  | .dateTime _ => 20
  | .text s => s.length
  | .raw bs => 3 * bs.length
  | _ => 0

theorem variableValueDecode_decoded (junk : Nat → Byte) (r : Record) (hn : r.dataLen ≤ 234)
    (h1 : r.dif.toNat % 16 = 0xD → 1 ≤ r.dataLen) :
    ∃ o, variableValueDecode junk r = .ok o ∧ Decoded o (meaning r) ∧ o.size = sizeFor (meaning r) := by
  have hl : r.data.bytes.length = 234 := r.data.length_bytes
  unfold variableValueDecode meaning
  rw [rd0, nibble_eq]
  rw [ok_bind]
  have hk : r.dif.toNat % 16 < 16 := Nat.mod_lt _ (by decide)
  have i4 := isDateTime_iff r
  generalize hK : r.dif.toNat % 16 = k at *
  match k, hk with
  | 0, _ =>
    simp only
    rw [wr_ok (by simp), ok_bind]
    refine ⟨_, rfl, ⟨rfl, ?_⟩, rfl⟩
    simp [malloc]
  | 1, _ =>
    simp only
    rw [C12_int_decode _ 1 (by decide) (by decide) (by omega), ok_bind]
    exact ⟨_, rfl, ⟨rfl, rfl, rfl⟩, rfl⟩
  | 2, _ =>
    simp only
    have h' := isDate_iff r hK
    by_cases h : IsDate r
    · have hG := tmDecode_G r.data.bytes (by omega)
      generalize dateG (leNat (r.data.bytes.take 2)) = t at hG ⊢
      have hp := printed_exact junk (dateText t)
      rw [dateText_length] at hp
      rw [if_pos (h'.mpr h), if_pos h, hG, ok_bind, fmtDate_eq _ (tmDecode_ok _ 2 (by omega) _ hG), ok_bind, hp, ok_bind]
      exact ⟨_, rfl, ⟨rfl, rfl⟩, by rw [dateText_length]; rfl⟩
    · rw [if_neg (fun c => h (h'.mp c)), if_neg h, C12_int_decode _ 2 (by decide) (by decide) (by omega), ok_bind]
      exact ⟨_, rfl, ⟨rfl, rfl, rfl⟩, rfl⟩
  | 3, _ =>
    simp only
    rw [C12_int_decode _ 3 (by decide) (by decide) (by omega), ok_bind]
    exact ⟨_, rfl, ⟨rfl, rfl, rfl⟩, rfl⟩
  | 4, _ =>
    simp only
    by_cases h : IsDateTime r
    · have hG := tmDecode_F r.data.bytes (by omega)
      generalize dateF (leNat (r.data.bytes.take 4)) = t at hG ⊢
      have hp := printed_exact junk (dateTimeText t ++ [90])
      have hlen : (dateTimeText t ++ [90]).length = 20 := by simp
      rw [hlen] at hp
      rw [if_pos ((i4 (.inl rfl)).mpr h), if_pos h, hG, ok_bind, fmtDateTime_eq _ (tmDecode_ok _ 4 (by omega) _ hG), ok_bind, hp, ok_bind]
      exact ⟨_, rfl, ⟨rfl, rfl⟩, by rw [hlen]; rfl⟩
    · rw [if_neg (fun c => h ((i4 (.inl rfl)).mp c)), if_neg h, C12_int_decode _ 4 (by decide) (by decide) (by omega), ok_bind]
      exact ⟨_, rfl, ⟨rfl, rfl, rfl⟩, rfl⟩
  | 5, _ =>
    simp only
    rw [floatDecode_eq _ (by omega), ok_bind]
    exact ⟨_, rfl, ⟨rfl, rfl, rfl⟩, rfl⟩
  | 6, _ =>
    simp only
    by_cases h : IsDateTime r
    · have hG := tmDecode_I r.data.bytes (by omega)
      generalize dateI (leNat (r.data.bytes.take 6)) = t at hG ⊢
      have hp := printed_exact junk (dateTimeText t ++ [90])
      have hlen : (dateTimeText t ++ [90]).length = 20 := by simp
      rw [hlen] at hp
      rw [if_pos ((i4 (.inr rfl)).mpr h), if_pos h, hG, ok_bind, fmtDateTime_eq _ (tmDecode_ok _ 6 (by omega) _ hG), ok_bind, hp, ok_bind]
      exact ⟨_, rfl, ⟨rfl, rfl⟩, by rw [hlen]; rfl⟩
    · rw [if_neg (fun c => h ((i4 (.inr rfl)).mp c)), if_neg h, C12_long_long_decode _ 6 (by decide) (by decide) (by omega), ok_bind]
      exact ⟨_, rfl, ⟨rfl, rfl, rfl⟩, rfl⟩
  | 7, _ =>
    simp only
    rw [C12_long_long_decode _ 8 (by decide) (by decide) (by omega), ok_bind]
    exact ⟨_, rfl, ⟨rfl, rfl, rfl⟩, rfl⟩
  | 8, _ => exact ⟨_, rfl, ⟨rfl, rfl⟩, rfl⟩
  | 9, _ =>
    simp only
    rw [bcdDecode_value _ 1 (by decide) (by decide) (by omega), ok_bind]
    exact ⟨_, rfl, ⟨rfl, rfl, rfl⟩, rfl⟩
  | 10, _ =>
    simp only
    rw [bcdDecode_value _ 2 (by decide) (by decide) (by omega), ok_bind]
    exact ⟨_, rfl, ⟨rfl, rfl, rfl⟩, rfl⟩
  | 11, _ =>
    simp only
    rw [bcdDecode_value _ 3 (by decide) (by decide) (by omega), ok_bind]
    exact ⟨_, rfl, ⟨rfl, rfl, rfl⟩, rfl⟩
  | 12, _ =>
    simp only
    rw [bcdDecode_value _ 4 (by decide) (by decide) (by omega), ok_bind]
    exact ⟨_, rfl, ⟨rfl, rfl, rfl⟩, rfl⟩
  | 13, _ =>
    have h1 := h1 rfl
    simp only
    rw [rd_ok (by omega), ok_bind, headD_data, sizePred_eq _ h1 hn]
    have e : (r.data.bytes.take r.dataLen).drop 1 = (r.data.bytes.drop 1).take (r.dataLen - 1) := by
      rw [List.drop_take]
    have el : ((r.data.bytes.drop 1).take (r.dataLen - 1)).reverse.length = r.dataLen - 1 := by simp; omega
    by_cases h : (r.data.bytes[0]'(by simp)).toNat ≤ 0xBF
    · rw [if_pos ((lvar_le _).mpr h), if_pos h, e, strDecode_eq _ _ _ (by simp; omega) (by simp; omega), ok_bind]
      refine ⟨_, rfl, ⟨rfl, ?_⟩, ?_⟩
      · rw [show List.drop (r.dataLen - 1 + 1) (malloc junk r.dataLen) = [] from List.drop_of_length_le (by simp; omega)]
      · show toInt32 _ = ((List.length _ : Nat) : Int)
        rw [el, toInt32_id _ (by omega)]
    · obtain ⟨m, hm, hml, hp⟩ := bin_exact junk (r.data.bytes.drop 1) (r.dataLen - 1) (by simp; omega)
      have e3 : (3 * (r.dataLen - 1) + 1) % 2 ^ 64 = 3 * (r.dataLen - 1) + 1 := Nat.mod_eq_of_lt (by omega)
      rw [if_neg (fun c => h ((lvar_le _).mp c)), if_neg h, e, e3, hm, ok_bind]
      refine ⟨_, rfl, ⟨rfl, m, rfl, hp, by rw [el]; exact hml⟩, ?_⟩
      show toInt32 _ = 3 * ((List.length _ : Nat) : Int)
      rw [el, toInt32_id _ (by omega)]
      omega
  | 14, _ =>
    simp only
    rw [bcdDecode_value _ 6 (by decide) (by decide) (by omega), ok_bind]
    exact ⟨_, rfl, ⟨rfl, rfl, rfl⟩, rfl⟩
  | 15, _ =>
    simp only
    obtain ⟨m, hm, hml, hp⟩ := bin_exact junk r.data.bytes r.dataLen (by omega)
    rw [hm, ok_bind]
    refine ⟨_, rfl, ⟨rfl, m, rfl, hp, by rw [List.length_reverse, List.length_take]; omega⟩, ?_⟩
    show toInt32 _ = 3 * ((List.length _ : Nat) : Int)
    have el : (r.data.bytes.take r.dataLen).reverse.length = r.dataLen := by simp; omega
    rw [el, toInt32_id _ (by omega)]
    omega
  | n + 16, h => exact absurd h (by omega)

end Mbus
