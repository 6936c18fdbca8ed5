import Verif.Lemmas.Value
import Verif.Props.Record
import Verif.Props.Units
/-
Property theorems C19, C66-C72: values of records - printed text, normalised values, dates, reals.
-/
namespace Mbus
open Spec

theorem Delivered.bounds {r : Record} (h : Delivered r) :
    r.dataLen ≤ 234 ∧ (r.dif.toNat % 16 = 0xD → 1 ≤ r.dataLen) ∧ r.ndife ≤ 10 := by
  obtain ⟨f, v, v', hs, hp, hr⟩ := h
  have := C32_bounds f v v' hs hp r hr
  exact ⟨this.2.2.1, this.2.2.2, this.1⟩

/-! ### reading numerals back -/

theorem readNat_snoc (l : List Byte) (c : Byte) (n : Nat) (h : readNat l = some n) (hc : 48 ≤ c.toNat ∧ c.toNat ≤ 57) :
    readNat (l ++ [c]) = some (n * 10 + (c.toNat - 48)) := by
  unfold readNat at *
  by_cases hl : l = []
  · simp [hl] at h
  · rw [if_neg hl] at h
    rw [if_neg (by simp), List.foldl_append, h]
    simp [hc]

theorem readNat_decDigits (n : Nat) : readNat (decDigits n) = some n := by
  fun_induction decDigits n with
  | case1 n h =>
    have : ∀ k : Fin 10, readNat [UInt8.ofNat (48 + k.val)] = some k.val := by decide +kernel
    exact this ⟨n, h⟩
  | case2 n h ih =>
    rw [readNat_snoc _ _ _ ih (by rw [UInt8.toNat_ofNat_of_lt' (show _ < 256 by omega)]; omega),
      UInt8.toNat_ofNat_of_lt' (show _ < 256 by omega)]
    congr 1
    omega

theorem readInt_plain (l : List Byte) (h : ∀ c ∈ l, 48 ≤ c.toNat ∧ c.toNat ≤ 57) :
    readInt l = (readNat l).map fun n : Nat => (n : Int) := by
  unfold readInt
  split
  · exact absurd (h 45 (by simp)) (by decide)
  · rfl

theorem readInt_fmtInt (z : Int) : readInt (fmtInt z) = some z := by
  unfold fmtInt
  split
  · simp only [readInt, readNat_decDigits, Option.map_some]; congr 1; omega
  · rw [readInt_plain _ (decDigits_digit _), readNat_decDigits, Option.map_some]; congr 1; omega

/-! ### C19 -/

/-- C19: a 2-byte date is printed as exactly the ten characters YYYY-MM-DD, and the normaliser stores the same ten
characters in its 11-byte allocation. -/
theorem C19_date (r : Record) (hr : Delivered r) (h : IsDate r) (buff : List Byte) (hb : buff.length = 768) (junk : Nat → Byte) :
    let t := dateG (leNat (r.data.bytes.take 2))
    recordValue buff r = .ok (dateText t) ∧ (dateText t).length = 10 ∧
    ∃ o, variableValueDecode junk r = .ok o ∧ o.str = some (dateText t ++ [0]) ∧ o.size = 10 := by
  have hm : meaning r = .date (dateG (leNat (r.data.bytes.take 2))) := by
    unfold meaning; rw [h.1]; simp only; rw [if_pos h]
  obtain ⟨h1, h2, _⟩ := hr.bounds
  obtain ⟨o, ho, hd, hz⟩ := variableValueDecode_decoded junk r h1 h2
  rw [hm] at hd hz
  refine ⟨?_, dateText_length _, o, ho, hd.2, hz⟩
  rw [recordValue_shown buff r hb h1 h2]
  unfold shown
  rw [hm, upToNul_eq _ (dateText_nonul _)]

/-- C19: a 4- or 6-byte time point is printed as exactly the nineteen characters YYYY-MM-DDThh:mm:ss, and the normaliser
stores them with a Z in its 21-byte allocation. -/
theorem C19_date_time (r : Record) (hr : Delivered r) (h : IsDateTime r) (buff : List Byte) (hb : buff.length = 768)
    (junk : Nat → Byte) :
    let t := if r.dif.toNat % 16 = 4 then dateF (leNat (r.data.bytes.take 4)) else dateI (leNat (r.data.bytes.take 6))
    recordValue buff r = .ok (dateTimeText t) ∧ (dateTimeText t).length = 19 ∧
    ∃ o, variableValueDecode junk r = .ok o ∧ o.str = some (dateTimeText t ++ cs! "Z" ++ [0]) ∧ o.size = 20 := by
  intro t
  have hm : meaning r = .dateTime t := by
    show meaning r = .dateTime (if r.dif.toNat % 16 = 4 then _ else _)
    unfold meaning
    rcases h.1 with h4 | h6
    · rw [if_pos h4]; rw [h4]; simp only; rw [if_pos h]
    · rw [if_neg (by omega)]; rw [h6]; simp only; rw [if_pos h]
  obtain ⟨h1, h2, _⟩ := hr.bounds
  obtain ⟨o, ho, hd, hz⟩ := variableValueDecode_decoded junk r h1 h2
  rw [hm] at hd hz
  refine ⟨?_, dateTimeText_length _, o, ho, hd.2, hz⟩
  rw [recordValue_shown buff r hb h1 h2]
  unfold shown
  rw [hm, upToNul_eq _ (dateTimeText_nonul _)]

/-- a telegram with one record of each kind -/
def sample : Frame := rsp 0x72 (hdr ++ [0x42, 0x6C, 0x1F, 0x0C] ++ [0x04, 0x6D, 0x1E, 0x0D, 0x4F, 0x1B] ++ [0x02, 0x13, 0xFE, 0xFF] ++
  [0x0C, 0x78, 0x56, 0x34, 0x12, 0xF0] ++ [0x05, 0x13, 0, 0, 0xC0, 0x3F] ++ [0x0D, 0x78, 3, 0x43, 0x42, 0x41] ++ [0x0F, 1, 2])

def sampleRec (i : Nat) : Record :=
  match variableParse sample VarData.zero with
  | .ok (0, v) => v.records.getD i Record.new
  | _ => Record.new

theorem sample_ok : ∃ v, variableParse sample VarData.zero = .ok (0, v) ∧ v.records.length = 7 := by
  have h : (match variableParse sample VarData.zero with
    | .ok (0, v) => decide (v.records.length = 7)
    | _ => false) = true := by decide +kernel
  cases hp : variableParse sample VarData.zero with
  | error e => rw [hp] at h; simp at h
  | ok x =>
    obtain ⟨c, v⟩ := x
    rw [hp] at h
    match c, h with
    | .ofNat 0, h => exact ⟨v, rfl, by simpa using h⟩

theorem sampleRec_delivered (i : Nat) (hi : i < 7) : Delivered (sampleRec i) := by
  obtain ⟨v, hv, hl⟩ := sample_ok
  refine ⟨sample, VarData.zero, v, by decide, hv, ?_⟩
  unfold sampleRec
  rw [hv]
  simp only
  rw [List.getD_eq_getElem?_getD, List.getElem?_eq_getElem (by omega)]
  exact List.getElem_mem _

example : IsDate (sampleRec 0) ∧ recordValue (List.replicate 768 7) (sampleRec 0) = .ok (cs! "2000-12-31") := by decide +kernel
example : IsDateTime (sampleRec 1) ∧ recordValue (List.replicate 768 7) (sampleRec 1) = .ok (cs! "2010-11-15T13:30:00") := by
  decide +kernel

/-! ### C66: reals -/

/-- C66: on a little-endian host with IEEE floats the decoder yields the binary32 value of the four bytes, least
significant first; nothing behind the four bytes is read. -/
theorem C66_ieee_partial (d : List Byte) (h : 4 ≤ d.length) : floatDecode d = .ok (ieee32 (leNat (d.take 4))) :=
  floatDecode_eq d h

/-- C66: the value is the one IEEE 754 assigns to sign bit `s`, exponent field `e` and fraction `m` of the 32-bit word. -/
theorem C66_ieee_value (s e m : Nat) (hs : s < 2) (he : e < 256) (hm : m < 8388608) :
    ieee32 (s * 2147483648 + e * 8388608 + m) =
      if e = 255 then (if m = 0 then .inf (s == 1) else .nan (s == 1))
      else if e = 0 then .fin (s == 1) ((m : Rat) * 2 ^ (-149 : Int))
      else .fin (s == 1) ((1 + (m : Rat) / 8388608) * 2 ^ ((e : Int) - 127)) := by
  have h1 : (s * 2147483648 + e * 8388608 + m) / 2 ^ 31 % 2 = s := by omega
  have h2 : (s * 2147483648 + e * 8388608 + m) / 2 ^ 23 % 256 = e := by omega
  have h3 : (s * 2147483648 + e * 8388608 + m) % 2 ^ 23 = m := by omega
  have hz : ∀ k : Nat, (2 : Rat) ^ (-(k : Int)) = 1 / 2 ^ k := by
    intro k; rw [Rat.zpow_neg, Rat.zpow_natCast, Rat.div_def, Rat.one_mul]
  unfold ieee32
  simp only [h1, h2, h3]
  have hb : decide (s = 1) = (s == 1) := rfl
  rw [hb]
  split
  · rfl
  · split
    · congr 1
    · congr 1
      rw [Int.sub_eq_add_neg, Rat.zpow_add (by decide), Rat.zpow_natCast, show (-127 : Int) = -((127 : Nat) : Int) by rfl, hz 127]
      generalize (2 : Rat) ^ e = E
      grind

theorem fold32 (b0 b1 b2 b3 : Byte) (rest : List Byte) :
    forDown (b0 :: b1 :: b2 :: b3 :: rest) 4 (0 : Int) (fun b t => do
      let s ← int64 (t * 256)
      int64 (s + (b.toNat : Int))) = .ok (leNat [b0, b1, b2, b3] : Int) := by
  have h0 := b0.toNat_lt
  have h1 := b1.toNat_lt
  have h2 := b2.toNat_lt
  have h3 := b3.toNat_lt
  simp only [forDown, rd, List.getElem?_cons_zero, List.getElem?_cons_succ]
  repeat (first | rw [ok_bind] | rw [int64_ok _ (by omega) (by omega)])
  simp only [leNat]
  congr 1
  omega

theorem pow2_split (e : Nat) : (2 : Rat) ^ (-23 + ((e : Int) - 127)) = 2 ^ e / 2 ^ 150 := by
  have : (-23 + ((e : Int) - 127)) = (e : Int) - 150 := by omega
  rw [this]
  have h : (2 : Rat) ^ ((e : Int) - 150) * 2 ^ 150 = 2 ^ e := by
    have := Rat.zpow_add (q := 2) (by decide) ((e : Int) - 150) (150 : Nat)
    rw [Rat.zpow_natCast] at this
    rw [← this, show (e : Int) - 150 + (150 : Nat) = (e : Nat) by omega, Rat.zpow_natCast]
  rw [← h, Rat.mul_div_cancel (by decide +kernel)]

/-- C66: the portable decoder (`_HAS_NON_IEEE754_FLOAT`) computes the binary32 value for every pattern that encodes a
normalised number (exponent field 1..254) and for the two zeros.
Missing: subnormal numbers, infinities and NaNs (see `C66_portable_violation`). -/
theorem C66_portable_partial (b0 b1 b2 b3 : Byte) (rest : List Byte)
    (h : (1 ≤ leNat [b0, b1, b2, b3] / 2 ^ 23 % 256 ∧ leNat [b0, b1, b2, b3] / 2 ^ 23 % 256 ≤ 254) ∨
      leNat [b0, b1, b2, b3] % 2 ^ 31 = 0) :
    floatDecodePortable (b0 :: b1 :: b2 :: b3 :: rest) = .ok (ieee32 (leNat [b0, b1, b2, b3])) := by
  have hlt : leNat [b0, b1, b2, b3] < 2 ^ 32 := by
    have := leNat_lt [b0, b1, b2, b3]; simpa using this
  unfold floatDecodePortable
  rw [fold32, ok_bind]
  generalize leNat [b0, b1, b2, b3] = w at *
  have hs : ((w : Int) >>> 31 ≠ 0) ↔ w / 2 ^ 31 % 2 = 1 := by
    rw [show ((w : Int) >>> 31) = ((w >>> 31 : Nat) : Int) from rfl, Nat.shiftRight_eq_div_pow]; omega
  have he : ((w &&& 0x7F800000) >>> 23) = w / 2 ^ 23 % 256 := by
    rw [Nat.shiftRight_and_distrib, Nat.shiftRight_eq_div_pow]
    exact Nat.and_two_pow_sub_one_eq_mod (w / 2 ^ 23) 8
  have hf : w &&& 0x7FFFFF = w % 2 ^ 23 := Nat.and_two_pow_sub_one_eq_mod w 23
  simp only [Int.toNat_natCast, he, hf]
  unfold ieee32
  simp only [hs]
  rcases h with h | h
  · rw [if_pos (by omega), if_neg (by omega), if_neg (by omega)]
    have hor : w % 2 ^ 23 ||| 0x800000 = 2 ^ 23 + w % 2 ^ 23 := by
      have := Nat.two_pow_add_eq_or_of_lt (i := 23) (b := w % 2 ^ 23) (Nat.mod_lt _ (by decide)) 1
      rw [Nat.or_comm]; simpa using this.symm
    rw [hor, pow2_split, Rat.div_def, Rat.div_def, Rat.mul_assoc]
  · have e0 : w / 2 ^ 23 % 256 = 0 := by omega
    have m0 : w % 2 ^ 23 = 0 := by omega
    rw [e0, m0]
    rw [if_neg (by decide), if_neg (by decide), if_pos rfl]
    congr 2
    decide +kernel

/-- C66 is false for the portable decoder: subnormal numbers come out halved and infinity becomes a number. -/
theorem C66_portable_violation :
    floatDecodePortable [2, 0, 0, 0] = .ok (.fin false (1 / 2 ^ 149)) ∧ ieee32 2 = .fin false (2 / 2 ^ 149) ∧
    floatDecodePortable [0, 0, 0x80, 0x7F] = .ok (.fin false 0) ∧ ieee32 0x7F800000 = .inf false := by decide +kernel

/-- C66 is false on big-endian hosts: the bytes 00 00 80 3F (1.0) decode to a tiny number. -/
theorem C66_host_violation :
    floatDecodeHost false [0, 0, 0x80, 0x3F] = .ok (.fin false 1) ∧
    floatDecodeHost true [0, 0, 0x80, 0x3F] ≠ floatDecodeHost false [0, 0, 0x80, 0x3F] := by decide +kernel

/-! ### C13: digits that are not decimal -/

/-- C13 for every byte string of 1 to 9 bytes, with digits A-F too: in the upper half of a byte they count as 0, in the lower half as
10..15, and F in the upper half of the last byte is the sign. -/
theorem C13_any_digits (d : List Byte) (size : Nat) (h1 : 1 ≤ size) (h9 : size ≤ 9) (hs : size ≤ d.length) :
    bcdDecode d size = .ok (bcdValue (d.take size)) := bcdDecode_value d size h1 h9 hs

example := C13_any_digits [0x3A, 0xB2, 0xF1] 3 (by decide) (by decide) (by decide)
example : bcdValue [0x3A, 0xB2, 0xF1] = -10240 := by decide +kernel

/-! ### C67: memory safety -/

/-- C67: printing and normalising any record a parse delivers stays inside the record, the static buffer and the
allocations, whatever those buffers contained before; and neither result depends on that previous content. -/
theorem C67_safe (r : Record) (hr : Delivered r) (buff : List Byte) (hb : buff.length = 768) (junk : Nat → Byte) :
    (∃ b, recordDecode buff r = .ok b ∧ b.length = 768) ∧
    (∃ t, ∀ buff', buff'.length = 768 → recordValue buff' r = .ok t) ∧
    (∃ o, variableValueDecode junk r = .ok o ∧ (o.code = 0 ∨ o.code = -2) ∧
      ∀ m, o.str = some m → ∃ s, cstr m = .ok s ∧ ∀ junk', ∃ o' m', variableValueDecode junk' r = .ok o' ∧
        o'.str = some m' ∧ cstr m' = .ok s) := by
  obtain ⟨h1, h2, _⟩ := hr.bounds
  obtain ⟨b, hb1, hb2, _⟩ := recordDecode_leaves buff r hb h1 h2
  refine ⟨⟨b, hb1, hb2⟩, ⟨_, fun buff' hb' => recordValue_shown buff' r hb' h1 h2⟩, ?_⟩
  have D := fun j => variableValueDecode_decoded j r h1 h2
  obtain ⟨o, ho, hd, _⟩ := D junk
  refine ⟨o, ho, ?_, fun m hm => ?_⟩
  · cases hM : meaning r <;> rw [hM] at hd <;> first | exact .inl hd.1 | exact .inr hd.1
  · cases hM : meaning r with
    | int v => rw [hM] at hd; rw [hd.2.1] at hm; simp at hm
    | real v => rw [hM] at hd; rw [hd.2.1] at hm; simp at hm
    | bcd v => rw [hM] at hd; rw [hd.2.1] at hm; simp at hm
    | selection => rw [hM] at hd; rw [hd.2] at hm; simp at hm
    | empty =>
      rw [hM] at hd; rw [hd.2] at hm; injection hm with hm; subst hm
      refine ⟨_, cstr_prefix [] _ (List.prefix_refl _), fun j => ?_⟩
      obtain ⟨o', ho', hd', _⟩ := D j
      rw [hM] at hd'
      exact ⟨o', _, ho', hd'.2, cstr_prefix [] _ (List.prefix_refl _)⟩
    | date t =>
      rw [hM] at hd; rw [hd.2] at hm; injection hm with hm; subst hm
      refine ⟨_, cstr_prefix _ _ (List.prefix_refl _), fun j => ?_⟩
      obtain ⟨o', ho', hd', _⟩ := D j
      rw [hM] at hd'
      exact ⟨o', _, ho', hd'.2, cstr_prefix _ _ (List.prefix_refl _)⟩
    | dateTime t =>
      rw [hM] at hd; rw [hd.2] at hm; injection hm with hm; subst hm
      refine ⟨_, cstr_prefix _ _ (List.prefix_refl _), fun j => ?_⟩
      obtain ⟨o', ho', hd', _⟩ := D j
      rw [hM] at hd'
      exact ⟨o', _, ho', hd'.2, cstr_prefix _ _ (List.prefix_refl _)⟩
    | text s =>
      rw [hM] at hd; rw [hd.2] at hm; injection hm with hm; subst hm
      refine ⟨_, cstr_prefix _ _ (List.prefix_refl _), fun j => ?_⟩
      obtain ⟨o', ho', hd', _⟩ := D j
      rw [hM] at hd'
      exact ⟨o', _, ho', hd'.2, cstr_prefix _ _ (List.prefix_refl _)⟩
    | raw bs =>
      rw [hM] at hd
      obtain ⟨_, m0, h0, hp, _⟩ := hd
      rw [h0] at hm; injection hm with hm; subst hm
      refine ⟨_, cstr_prefix _ _ hp, fun j => ?_⟩
      obtain ⟨o', ho', hd', _⟩ := D j
      rw [hM] at hd'
      obtain ⟨_, m1, h1', hp', _⟩ := hd'
      exact ⟨o', m1, ho', h1', cstr_prefix _ _ hp'⟩

example (i : Nat) (h : i < 7) : Delivered (sampleRec i) := sampleRec_delivered i h

/-! ### C68: the printed value -/

/-- C68: the text returned for a delivered record is the one the specification `shown` gives for its meaning; only
strings can be cut, at an embedded NUL. -/
theorem C68_text (r : Record) (hr : Delivered r) (buff : List Byte) (hb : buff.length = 768) :
    recordValue buff r = .ok (upToNul (shown r)) ∧ ((∀ s, meaning r ≠ .text s) → upToNul (shown r) = shown r) := by
  obtain ⟨h1, h2, _⟩ := hr.bounds
  refine ⟨recordValue_shown buff r hb h1 h2, fun ht => upToNul_eq _ ?_⟩
  unfold shown
  cases hM : meaning r with
  | empty => simp
  | int v => exact fmtInt_nonul v
  | real x => exact fmtF_nonul x
  | date t => exact dateText_nonul t
  | dateTime t => exact dateTimeText_nonul t
  | bcd ds =>
    simp only
    split
    · exact hexDigits_nonul _
    · exact fmtInt_nonul _
  | text s => exact absurd hM (ht s)
  | raw bs => exact hexDump_nonul bs
  | selection =>
    have : ∀ b : Byte, (0 : Byte) ∉ fmtHex2L b := forall_byte (by decide +kernel)
    simp only [List.mem_append, this, or_false, not_or]
    decide

/-- C68: the text of an integer record, read as a decimal number, is the two's-complement value of its bytes. -/
theorem C68_integer (r : Record) (hr : Delivered r) (buff : List Byte) (hb : buff.length = 768) (v : Int) (h : meaning r = .int v) :
    ∃ t, recordValue buff r = .ok t ∧ readInt t = some v := by
  obtain ⟨h1, h2⟩ := C68_text r hr buff hb
  refine ⟨_, h1, ?_⟩
  rw [h2 (by rw [h]; simp)]
  unfold shown
  rw [h]
  exact readInt_fmtInt v

theorem hexDigits_lt (n : Nat) (h : n < 16) : hexDigits n = [hexDigitU n] := by rw [hexDigits, dif_pos h]
theorem hexDigits_ge (n : Nat) (h : ¬ n < 16) : hexDigits n = hexDigits (n / 16) ++ [hexDigitU (n % 16)] := by
  conv => lhs; rw [hexDigits, dif_neg h]
theorem decDigits_lt (n : Nat) (h : n < 10) : decDigits n = [UInt8.ofNat (48 + n)] := by rw [decDigits, dif_pos h]
theorem decDigits_ge (n : Nat) (h : ¬ n < 10) : decDigits n = decDigits (n / 10) ++ [UInt8.ofNat (48 + n % 10)] := by
  conv => lhs; rw [decDigits, dif_neg h]

theorem leNat_bcd_zero (l : List Byte) : leNat l = 0 ↔ bcdNat l = 0 := by
  induction l with
  | nil => simp [leNat, bcdNat]
  | cons c cs ih' => simp only [leNat, bcdNat]; omega

theorem hexDigits_bcd (l : List Byte) (h : IsBcd l) : hexDigits (leNat l) = decDigits (bcdNat l) := by
  have hU : ∀ n, n < 10 → hexDigitU n = UInt8.ofNat (48 + n) := fun n hn => by unfold hexDigitU; rw [if_pos hn]
  induction l with
  | nil => decide +kernel
  | cons b bs ih =>
    have hb := h b (by simp)
    have ih := ih (fun x hx => h x (by simp [hx]))
    have hbt := b.toNat_lt
    have hz := leNat_bcd_zero bs
    have eL : leNat (b :: bs) = b.toNat + 256 * leNat bs := rfl
    have eB : bcdNat (b :: bs) = b.toNat % 16 + 10 * (b.toNat / 16) + 100 * bcdNat bs := rfl
    by_cases h16 : leNat (b :: bs) < 16
    · have e : bcdNat bs = 0 := hz.mp (by omega)
      have e' : bcdNat (b :: bs) = leNat (b :: bs) := by omega
      rw [e', hexDigits_lt _ h16, decDigits_lt _ (by omega), hU _ (by omega)]
    · have hn : ¬ bcdNat (b :: bs) < 10 := by
        intro hc
        have : bcdNat bs = 0 := by omega
        have := hz.mpr this
        omega
      rw [hexDigits_ge _ h16, decDigits_ge _ hn]
      have e1 : leNat (b :: bs) / 16 = b.toNat / 16 + 16 * leNat bs := by omega
      have e2 : bcdNat (b :: bs) / 10 = b.toNat / 16 + 10 * bcdNat bs := by omega
      have e3 : leNat (b :: bs) % 16 = b.toNat % 16 := by omega
      have e4 : bcdNat (b :: bs) % 10 = b.toNat % 16 := by omega
      rw [e1, e2, e3, e4, hU _ (show b.toNat % 16 < 10 by omega)]
      congr 1
      by_cases hz0 : leNat bs = 0
      · have hz1 := hz.mp hz0
        rw [hz0, hz1]
        simp only [Nat.mul_zero, Nat.add_zero]
        rw [hexDigits_lt _ (by omega), decDigits_lt _ (by omega), hU _ (by omega)]
      · have hz1 : bcdNat bs ≠ 0 := fun c => hz0 (hz.mpr c)
        rw [hexDigits_ge _ (by omega), decDigits_ge _ (by omega)]
        have e5 : (b.toNat / 16 + 16 * leNat bs) / 16 = leNat bs := by omega
        have e6 : (b.toNat / 16 + 10 * bcdNat bs) / 10 = bcdNat bs := by omega
        have e7 : (b.toNat / 16 + 16 * leNat bs) % 16 = b.toNat / 16 := by omega
        have e8 : (b.toNat / 16 + 10 * bcdNat bs) % 10 = b.toNat / 16 := by omega
        rw [e5, e6, e7, e8, ih, hU _ (by omega)]

theorem bcdValue_isBcd (l : List Byte) (h : IsBcd l) : bcdValue l = bcdNat l := by
  unfold bcdValue
  simp only [foldr_bcdVal]
  rw [if_neg, bcdVal_eq l h]
  intro hc
  cases l with
  | nil => simp at hc
  | cons b bs =>
    have hm : (b :: bs).getLastD 0 ∈ b :: bs := by
      rw [List.getLastD_eq_getLast?, List.getLast?_eq_some_getLast (by simp)]
      exact List.getLast_mem _
    have := (h _ hm).2
    omega

/-- C68: a decimal (BCD) record with proper digits prints its decimal value, also in the hexadecimal form used for values
during an error state. -/
theorem C68_bcd (r : Record) (hr : Delivered r) (buff : List Byte) (hb : buff.length = 768) (ds : List Byte)
    (h : meaning r = .bcd ds) (hd : IsBcd ds) :
    ∃ t, recordValue buff r = .ok t ∧ readInt t = some (bcdNat ds : Int) := by
  obtain ⟨h1, h2⟩ := C68_text r hr buff hb
  refine ⟨_, h1, ?_⟩
  rw [h2 (by rw [h]; simp)]
  unfold shown
  rw [h]
  simp only
  split
  · rw [hexDigits_bcd ds hd, readInt_plain _ (decDigits_digit _), readNat_decDigits]; rfl
  · rw [readInt_fmtInt, bcdValue_isBcd ds hd]

/-- C68: a real record prints its value rounded to six decimals (error at most half a unit of the last digit), with a minus
sign exactly for negative values (including -0). -/
theorem C68_real (r : Record) (hr : Delivered r) (buff : List Byte) (hb : buff.length = 768) (neg : Bool) (m : Rat)
    (h : meaning r = .real (.fin neg m)) :
    ∃ n : Nat, recordValue buff r = .ok ((if neg then cs! "-" else []) ++ decDigits (n / 1000000) ++ cs! "." ++
        dec2 (n % 1000000 / 10000) ++ dec4 (n % 10000)) ∧
      (n : Rat) - m * 1000000 ≤ 1 / 2 ∧ m * 1000000 - (n : Rat) ≤ 1 / 2 := by
  obtain ⟨h1, h2⟩ := C68_text r hr buff hb
  have hm : 0 ≤ m := by
    have hx : ∃ w, ieee32 w = .fin neg m := by
      unfold meaning at h
      simp only at h
      split at h
      all_goals try (split at h)
      all_goals first | (injection h with h; exact ⟨_, h⟩) | (simp at h)
    obtain ⟨w, hw⟩ := hx
    exact (ieee32_lt w neg m hw).1
  refine ⟨roundEven (m * 1000000), ?_, roundEven_near _ (Rat.mul_nonneg hm (by decide))⟩
  rw [h1, h2 (by rw [h]; simp)]
  unfold shown
  rw [h]
  simp only [fmtF]
  have e : padZero 6 (decDigits (roundEven (m * 1000000) % 1000000)) =
      dec2 (roundEven (m * 1000000) % 1000000 / 10000) ++ dec4 (roundEven (m * 1000000) % 10000) := by
    rw [padZero_dec 6 _ (by decide) (by omega)]
    simp only [decW, dec4, dec2, List.nil_append, List.cons_append, Nat.div_div_eq_div_mul]
    generalize roundEven (m * 1000000) = n
    have a1 : n % 1000000 / (10 * 10 * 10 * 10 * 10) % 10 = n % 1000000 / (10000 * 10) % 10 := by omega
    have a2 : n % 1000000 / (10 * 10 * 10 * 10) % 10 = n % 1000000 / 10000 % 10 := by omega
    have a3 : n % 1000000 / (10 * 10 * 10) % 10 = n % 10000 / (100 * 10) % 10 := by omega
    have a4 : n % 1000000 / (10 * 10) % 10 = n % 10000 / 100 % 10 := by omega
    have a5 : n % 1000000 / 10 % 10 = n % 10000 / 10 % 10 := by omega
    have a6 : n % 1000000 % 10 = n % 10000 % 10 := by omega
    simp only [a1, a2, a3, a4, a5, a6]
  rw [e]
  simp

/-- C68: a text record prints its characters in reading order (the reverse of the transmission order) up to the first NUL. -/
theorem C68_string (r : Record) (hr : Delivered r) (buff : List Byte) (hb : buff.length = 768)
    (hk : r.dif.toNat % 16 = 0xD) (hl : (r.data.bytes.headD 0).toNat ≤ 0xBF) :
    recordValue buff r = .ok (upToNul ((r.data.bytes.take r.dataLen).drop 1).reverse) := by
  rw [(C68_text r hr buff hb).1]
  have : meaning r = .text ((r.data.bytes.take r.dataLen).drop 1).reverse := by
    unfold meaning; rw [hk]; simp only; rw [if_pos hl]
  unfold shown
  rw [this]

example : meaning (sampleRec 2) = .int (-2) ∧ recordValue (List.replicate 768 7) (sampleRec 2) = .ok (cs! "-2") :=
  ⟨by rfl, by decide +kernel⟩
example : meaning (sampleRec 3) = .bcd [0x56, 0x34, 0x12, 0xF0] ∧
    recordValue (List.replicate 768 7) (sampleRec 3) = .ok (cs! "-123456") := ⟨by rfl, by decide +kernel⟩
example : recordValue (List.replicate 768 7) (sampleRec 4) = .ok (cs! "1.500000") := by decide +kernel
example : recordValue (List.replicate 768 7) (sampleRec 5) = .ok (cs! "ABC") := by decide +kernel
example : recordValue (List.replicate 768 7) (sampleRec 6) = .ok (cs! "02 01") := by decide +kernel

/-! ### C81: order of the bytes of binary values -/

theorem fmtHex2_inj (a b : Byte) (h : fmtHex2 a = fmtHex2 b) : a = b := by
  have key : ∀ a : Byte, (16 * ((fmtHex2 a).headD 0 - if (fmtHex2 a).headD 0 < 58 then 48 else 55) +
      ((fmtHex2 a).getD 1 0 - if (fmtHex2 a).getD 1 0 < 58 then 48 else 55)) = a := by
    intro a; revert a; exact forall_byte (by decide +kernel)
  rw [← key a, ← key b, h]

/-- A dump determines the bytes dumped. -/
theorem hexDump_inj : ∀ a b : List Byte, hexDump a = hexDump b → a = b
  | [], b, h => by
    have := hexDump_length b
    rw [← h] at this
    cases b with
    | nil => rfl
    | cons x xs => simp [hexDump] at this; omega
  | a :: as, b, h => by
    have hl := hexDump_length b
    rw [← h, hexDump_length] at hl
    cases b with
    | nil => simp at hl; omega
    | cons x xs =>
      cases as with
      | nil =>
        cases xs with
        | nil => simp only [hexDump] at h; rw [fmtHex2_inj _ _ h]
        | cons => simp at hl; omega
      | cons a' as =>
        cases xs with
        | nil => simp at hl; omega
        | cons x' xs =>
          simp only [hexDump] at h
          have h1 := List.append_inj h rfl
          simp only [List.cons.injEq, true_and] at h1
          rw [fmtHex2_inj _ _ h1.1, hexDump_inj _ _ h1.2]

/-- C81 (partial; the property asks for transmission order): a manufacturer block or variable-length binary value is shown
byte by byte with nothing lost, but last byte first; the transmission order is shown only if the bytes read the same in
both directions. -/
theorem C81_raw_partial (r : Record) (hr : Delivered r) (buff : List Byte) (hb : buff.length = 768) (raw : List Byte)
    (hk : (r.dif.toNat % 16 = 0xF ∧ raw = r.data.bytes.take r.dataLen) ∨
      (r.dif.toNat % 16 = 0xD ∧ 0xC0 ≤ (r.data.bytes.headD 0).toNat ∧ raw = (r.data.bytes.take r.dataLen).drop 1)) :
    recordValue buff r = .ok (hexDump raw.reverse) ∧
    (recordValue buff r = .ok (hexDump raw) ↔ raw = raw.reverse) := by
  have hm : meaning r = .raw raw.reverse := by
    unfold meaning
    rcases hk with ⟨h, rfl⟩ | ⟨h, h2, rfl⟩ <;> rw [h]
    · rfl
    have h3 : ¬ (r.data.bytes.headD 0).toNat ≤ 0xBF := by omega
    exact if_neg h3
  have h := C68_text r hr buff hb
  have e : recordValue buff r = .ok (hexDump raw.reverse) := by
    rw [h.1, h.2 (by rw [hm]; simp)]
    unfold shown
    rw [hm]
  refine ⟨e, ?_⟩
  rw [e]
  constructor
  · intro h; injection h with h; exact (hexDump_inj _ _ h).symm
  · intro h; rw [← h]

/-- C81 is false: the manufacturer block 01 02 is shown as "02 01". -/
theorem C81_order_violation : ∃ r : Record, Delivered r ∧ r.dif.toNat % 16 = 0xF ∧ r.data.bytes.take r.dataLen = [1, 2] ∧
    hexDump [1, 2] = cs! "01 02" ∧ ∀ buff : List Byte, buff.length = 768 → recordValue buff r = .ok (cs! "02 01") :=
  ⟨sampleRec 6, (sampleRec_delivered 6 (by decide)), by decide +kernel, by decide +kernel, by decide +kernel, fun buff hb =>
    (C81_raw_partial (sampleRec 6) (sampleRec_delivered 6 (by decide)) buff hb [1, 2] (.inl ⟨by decide +kernel, by decide +kernel⟩)).1⟩

/-! ### C69: the normalised record -/

/-- What the parser guarantees about the unit fields: the plain text of a custom VIF is terminated, and a VIF with
extension bit has a VIFE. -/
theorem Delivered.unit {r : Record} (h : Delivered r) :
    (∃ c, cstr r.customVif.bytes = .ok c) ∧ (¬ Special r → 0x80 ≤ r.vif.toNat → r.nvife ≠ 0) := by
  obtain ⟨f, v, v', hs, hp, hr⟩ := h
  obtain ⟨_, _, rs, ht, hrs, _⟩ := variableParse_sound f v v' hs hp
  rw [hrs] at hr
  obtain ⟨w, hw, rfl⟩ := List.mem_map.mp hr
  have hL := tiles_legal ht w hw
  cases w with
  | special dif data =>
    refine ⟨⟨[], by simp only [mkRec, Record.new]; rfl⟩, fun hn => absurd hL.1 hn⟩
  | value dif difes vif text vifes data =>
    obtain ⟨_, _, _, _, _, hc, _, htx, _⟩ := hL
    refine ⟨?_, fun _ hv => ?_⟩
    · simp only [mkRec]
      split
      · have hd := delivers_mkRec _ (tiles_legal ht _ hw)
        rename_i hpt
        have := hd.2.2.2.2.2.2.1 hpt
        simp only [mkRec, if_pos hpt] at this
        exact ⟨_, cstr_prefix _ _ this⟩
      · exact ⟨[], rfl⟩
    · simp only [mkRec] at hv ⊢
      cases vifes with
      | nil => simp only [Chain] at hc; omega
      | cons x xs => simp

/-- The unit of a delivered ordinary record is known unless its VIF is 0x7B or 0x7D; normalising never faults. -/
theorem normalize_delivered {r : Record} (h : Delivered r) (hs : ¬ Special r) (x : Flt) :
    ∃ n, vibUnitNormalize r x = .ok (some n) ∧ (n.code ≠ 0 ↔ UnknownUnit r) := by
  obtain ⟨⟨c, hc⟩, hv⟩ := h.unit
  have key : ∀ z : Nat, z < 768 → z % 256 < 128 → ∀ x, ((vifUnitNormalize (z : Int) x).code ≠ 0 ↔ ¬ KnownCode z) := by
    intro z hz hz2 x
    have hm : (((z : Int) % 4096).toNat &&& 0xF7F) = z := by
      have e : ((z : Int) % 4096).toNat = z := by omega
      rw [e]; exact mask_code ⟨z, hz⟩ hz2
    have := C37_unknown (z : Int) x
    rw [hm] at this
    by_cases hk : KnownCode z
    · simp [this.1 hk, hk]
    · simp [(this.2 hk).1, hk]
  by_cases h7c : r.vif = 0x7C ∨ r.vif = 0xFC
  · refine ⟨_, vibUnitNormalize_custom r x c hc h7c, ?_⟩
    unfold UnknownUnit
    rcases h7c with h | h <;> simp [h] <;> decide
  by_cases hfd : r.vif = 0xFD
  · refine ⟨_, (vibUnitNormalize_fdfb r x (hv hs (by rw [hfd]; decide))).1 hfd, ?_⟩
    rw [key _ (by omega) (by omega)]
    unfold UnknownUnit KnownCode
    rw [hfd]
    have : ¬ ((0xFD : Byte) = 0x7B ∨ (0xFD : Byte) = 0x7D) := by decide
    simp only [this, iff_false]; omega
  by_cases hfb : r.vif = 0xFB
  · refine ⟨_, (vibUnitNormalize_fdfb r x (hv hs (by rw [hfb]; decide))).2 hfb, ?_⟩
    rw [key _ (by omega) (by omega)]
    unfold UnknownUnit KnownCode
    rw [hfb]
    have : ¬ ((0xFB : Byte) = 0x7B ∨ (0xFB : Byte) = 0x7D) := by decide
    simp only [this, iff_false]; omega
  have hU : ∀ b : Byte, b ≠ 0x7C → b ≠ 0xFC → b ≠ 0xFD → b ≠ 0xFB →
      (¬ KnownCode (b.toNat % 128) ↔ (b = 0x7B ∨ b = 0x7D)) := forall_byte (by decide +kernel)
  have hu := hU r.vif (fun h => h7c (.inl h)) (fun h => h7c (.inr h)) hfd hfb
  have hk := key (r.vif.toNat % 128) (by omega) (by omega) x
  by_cases hx : r.vif.toNat < 0x80
  · exact ⟨_, vibUnitNormalize_plain r x hx (fun h => h7c (.inl h)), hk.trans hu⟩
  · by_cases h0 : (vifUnitNormalize ((r.vif.toNat % 128 : Nat) : Int) x).code = 0
    · exact ⟨_, vibUnitNormalize_ext r x (by omega) hfd hfb (fun h => h7c (.inr h)) h0, hk.trans hu⟩
    · exact ⟨_, vibUnitNormalize_fail r x (by omega) hfd hfb (fun h => h7c (.inr h)) h0, hk.trans hu⟩

set_option maxRecDepth 100000 in
theorem table_positive : ∀ r ∈ vifTable, r.vif ≠ 0x6F → 0 < r.exponent := by decide +kernel

theorem vifUnit_infinite (z : Nat) (hz : z < 768) (hz2 : z % 256 < 128) (x : Flt) (hq : ∀ neg m, x ≠ .fin neg m) (h6 : z ≠ 0x6F)
    (h : (vifUnitNormalize (z : Int) x).code = 0) : (vifUnitNormalize (z : Int) x).value = x := by
  have hm : (((z : Int) % 4096).toNat &&& 0xF7F) = z := by
    have e : ((z : Int) % 4096).toNat = z := by omega
    rw [e]; exact mask_code ⟨z, hz⟩ hz2
  rw [vifUnitNormalize_row, hm] at h ⊢
  cases hr : rowOf z with
  | none => rw [hr] at h; cases h
  | some t =>
    obtain ⟨e, u, q⟩ := t
    unfold rowOf at hr
    rw [Option.map_eq_some_iff] at hr
    obtain ⟨row, hrow, he⟩ := hr
    have hv : row.vif = z := by simpa using List.find?_some hrow
    have := table_positive row (List.mem_of_find?_eq_some hrow) (by omega)
    injection he with he
    rw [he] at this
    exact mul_infinite x hq e this

theorem vifeCorrection_infinite (b : Byte) (x : Flt) (hq : ∀ neg m, x ≠ .fin neg m) : vifeCorrection b x = x := by
  have hp : ∀ k : Int, (0 : Rat) < (10 : Rat) ^ k := fun k => Rat.zpow_pos (by decide)
  unfold vifeCorrection
  dsimp only
  split
  · exact mul_infinite x hq _ (hp _)
  · split
    · exact add_infinite x hq _
    · split
      · exact mul_infinite x hq _ (by decide)
      · rfl

/-- Normalising keeps what is infinite or not a number, except with the reserved VIF 0x6F. -/
theorem normalize_infinite {r : Record} (h : Delivered r) (hs : ¬ Special r) (x : Flt) (N : Norm) (hN : vibUnitNormalize r x = .ok (some N))
    (h0 : N.code = 0) (hq : ∀ neg m, x ≠ .fin neg m) (h6 : r.vif.toNat % 128 ≠ 0x6F) : N.value = x := by
  obtain ⟨⟨c, hc⟩, hv⟩ := h.unit
  by_cases h7c : r.vif = 0x7C ∨ r.vif = 0xFC
  · rw [vibUnitNormalize_custom r x c hc h7c] at hN
    injection hN with hN; injection hN with hN; subst hN
    dsimp only
    split
    · exact vifeCorrection_infinite _ x hq
    · rfl
  by_cases hfd : r.vif = 0xFD
  · rw [(vibUnitNormalize_fdfb r x (hv hs (by rw [hfd]; decide))).1 hfd] at hN
    injection hN with hN; injection hN with hN; subst hN
    exact vifUnit_infinite _ (by omega) (by omega) x hq (by omega) h0
  by_cases hfb : r.vif = 0xFB
  · rw [(vibUnitNormalize_fdfb r x (hv hs (by rw [hfb]; decide))).2 hfb] at hN
    injection hN with hN; injection hN with hN; subst hN
    exact vifUnit_infinite _ (by omega) (by omega) x hq (by omega) h0
  by_cases hx : r.vif.toNat < 0x80
  · rw [vibUnitNormalize_plain r x hx (fun h => h7c (.inl h))] at hN
    injection hN with hN; injection hN with hN; subst hN
    exact vifUnit_infinite _ (by omega) (by omega) x hq h6 h0
  · by_cases hk : (vifUnitNormalize ((r.vif.toNat % 128 : Nat) : Int) x).code = 0
    · rw [vibUnitNormalize_ext r x (by omega) hfd hfb (fun h => h7c (.inr h)) hk] at hN
      injection hN with hN; injection hN with hN; subst hN
      dsimp only
      rw [vifUnit_infinite _ (by omega) (by omega) x hq h6 hk]
      exact vifeCorrection_infinite _ x hq
    · rw [vibUnitNormalize_fail r x (by omega) hfd hfb (fun h => h7c (.inr h)) hk] at hN
      injection hN with hN; injection hN with hN; subst hN
      exact absurd h0 hk

theorem functionLabel_ordinary (r : Record) (h : ¬ Special r) : recordFunction r = functionLabel r := by
  rw [(C64_medium_error 0 0 r).2.2]
  unfold recordFunctionText functionLabel
  have h' := not_or.mp h
  rw [if_neg h'.1, if_neg h'.2]
  have : ∀ b : Byte, b.toNat &&& 0x30 = 16 * (b.toNat / 16 % 4) := forall_byte (by decide +kernel)
  rw [this]
  have hk : r.dif.toNat / 16 % 4 < 4 := Nat.mod_lt _ (by decide)
  generalize r.dif.toNat / 16 % 4 = k at hk
  match k, hk with
  | 0, _ => rfl
  | 1, _ => rfl
  | 2, _ => rfl
  | 3, _ => rfl
  | n + 4, h => exact absurd h (by omega)

/-- `Decoded` split into "number" and "text". -/
theorem decoded_split {o : ValOut} {m : Meaning} (h : Decoded o m) :
    (∀ x, m.number = some x → o.code = 0 ∧ o.str = none ∧ o.real = x) ∧
    (∀ t, m.words = some t → o.code = 0 ∧ ∃ s, o.str = some s ∧ cstr s = .ok t) ∧
    (m = .selection → o.code = -2 ∧ o.str = none) := by
  have nul : ∀ t : List Byte, (0 : Byte) ∉ t → cstr (t ++ [0]) = .ok t := fun t ht => by
    rw [cstr_prefix t _ (List.prefix_refl _), upToNul_eq t ht]
  cases m with
  | empty => simp only [Meaning.number, Meaning.words]; exact ⟨by simp, by rintro t ⟨⟩; exact ⟨h.1, _, h.2, rfl⟩, by simp⟩
  | int v => simp only [Meaning.number, Meaning.words]; exact ⟨by rintro x ⟨⟩; exact h, by simp, by simp⟩
  | real v => simp only [Meaning.number, Meaning.words]; exact ⟨by rintro x ⟨⟩; exact h, by simp, by simp⟩
  | bcd v => simp only [Meaning.number, Meaning.words]; exact ⟨by rintro x ⟨⟩; exact h, by simp, by simp⟩
  | date t =>
    simp only [Meaning.number, Meaning.words]
    exact ⟨by simp, by rintro u ⟨⟩; exact ⟨h.1, _, h.2, nul _ (dateText_nonul t)⟩, by simp⟩
  | dateTime t =>
    simp only [Meaning.number, Meaning.words]
    refine ⟨by simp, ?_, by simp⟩
    rintro u ⟨⟩
    refine ⟨h.1, _, h.2, nul _ ?_⟩
    intro hc
    rcases List.mem_append.mp hc with hc | hc
    · exact dateTimeText_nonul t hc
    · revert hc; decide
  | text s =>
    simp only [Meaning.number, Meaning.words]
    exact ⟨by simp, by rintro u ⟨⟩; exact ⟨h.1, _, h.2, cstr_prefix s _ (List.prefix_refl _)⟩, by simp⟩
  | raw bs =>
    simp only [Meaning.number, Meaning.words]
    obtain ⟨h1, m, h2, h3, _⟩ := h
    exact ⟨by simp, by rintro u ⟨⟩; exact ⟨h1, m, h2, by rw [cstr_prefix _ _ h3, upToNul_eq _ (hexDump_nonul bs)]⟩, by simp⟩
  | selection => simp only [Meaning.number, Meaning.words]; exact ⟨by simp, by simp, fun _ => h⟩

theorem Meaning.kinds (m : Meaning) : (∃ x, m.number = some x ∧ m.words = none) ∨ (∃ t, m.words = some t ∧ m.number = none) ∨
    (m = .selection ∧ m.number = none ∧ m.words = none) := by
  cases m <;> simp [Meaning.number, Meaning.words]

theorem meaning_selection (r : Record) : meaning r = .selection ↔ r.dif.toNat % 16 = 8 := by
  unfold meaning
  have hk : r.dif.toNat % 16 < 16 := Nat.mod_lt _ (by decide)
  generalize hK : r.dif.toNat % 16 = k at *
  match k, hk with
  | 0, _ => simp
  | 1, _ => simp
  | 2, _ => simp only; split <;> simp
  | 3, _ => simp
  | 4, _ => simp only; split <;> simp
  | 5, _ => simp
  | 6, _ => simp only; split <;> simp
  | 7, _ => simp
  | 8, _ => simp
  | 9, _ => simp
  | 10, _ => simp
  | 11, _ => simp
  | 12, _ => simp
  | 13, _ => simp only; split <;> simp
  | 14, _ => simp
  | 15, _ => simp
  | n + 16, h => exact absurd h (by omega)

/-- The complete behaviour of the normaliser on a delivered record. -/
theorem parseVariableRecord_eq {r : Record} (hr : Delivered r) (hst : StorageOk r) (junk : Nat → Byte) :
    ∃ o res leak, variableValueDecode junk r = .ok o ∧ Decoded o (meaning r) ∧ o.size = sizeFor (meaning r) ∧
      parseVariableRecord junk r = .ok (res, leak) ∧
      (res = none ↔ meaning r = .selection ∨ (¬ Special r ∧ UnknownUnit r)) ∧
      (leak = if ¬ Special r ∧ UnknownUnit r then o.str else none) ∧
      ∀ n, res = some n →
        n.storage = (storageOf r.dif (r.dife.bytes.take r.ndife) : Int) ∧
        n.tariff = (if r.ndife = 0 then -1 else (tariffOf (r.dife.bytes.take r.ndife) : Int)) ∧
        n.device = (if r.ndife = 0 then -1 else (deviceOf (r.dife.bytes.take r.ndife) : Int)) ∧
        n.function = functionLabel r ∧
        (Special r → n.unit = none ∧ n.quantity = none) ∧
        (¬ Special r → ∃ N, vibUnitNormalize r o.real = .ok (some N) ∧ n.unit = some N.unit ∧
          n.quantity = some N.quantity ∧ (o.str = none → n.value = .num N.value)) ∧
        (∀ s, o.str = some s → n.value = .str s o.size) := by
  obtain ⟨h1, h2, h3⟩ := hr.bounds
  obtain ⟨o, ho, hd, hz⟩ := variableValueDecode_decoded junk r h1 h2
  obtain ⟨ht, hdv⟩ := C33_tariff_device r h3
  have hs := C33_storage_partial r hst.1 hst.2
  obtain ⟨d1, d2, d3⟩ := decoded_split hd
  have hcode : o.code ≠ 0 ↔ meaning r = .selection := by
    rcases Meaning.kinds (meaning r) with ⟨x, hx, _⟩ | ⟨t, hx, _⟩ | ⟨hx, _⟩
    · refine ⟨fun h => absurd (d1 x hx).1 h, fun h => ?_⟩; rw [h] at hx; simp [Meaning.number] at hx
    · refine ⟨fun h => absurd (d2 t hx).1 h, fun h => ?_⟩; rw [h] at hx; simp [Meaning.words] at hx
    · exact ⟨fun _ => hx, fun _ => by rw [(d3 hx).1]; decide⟩
  by_cases hsp : Special r
  · have hsel : ¬ meaning r = .selection := by
      rw [meaning_selection]; rcases hsp with h | h <;> rw [h] <;> decide
    have hstr : ∃ s, o.str = some s := by
      have : ∃ bs, meaning r = .raw bs := by
        unfold meaning; rcases hsp with h | h <;> rw [h] <;> exact ⟨_, rfl⟩
      obtain ⟨bs, hb⟩ := this
      obtain ⟨_, s, hs, _⟩ := d2 (hexDump bs) (by rw [hb]; rfl)
      exact ⟨s, hs⟩
    obtain ⟨s, hstr⟩ := hstr
    have hp : parseVariableRecord junk r = .ok (some ⟨.str s o.size, none, functionLabel r, none,
        (if r.ndife = 0 then -1 else (deviceOf (r.dife.bytes.take r.ndife) : Int)),
        (if r.ndife = 0 then -1 else (tariffOf (r.dife.bytes.take r.ndife) : Int)),
        (storageOf r.dif (r.dife.bytes.take r.ndife) : Int)⟩, none) := by
      unfold parseVariableRecord
      rw [hs, ok_bind, ht, ok_bind, hdv, ok_bind, if_pos (show r.dif = 0x0F ∨ r.dif = 0x1F from hsp), ho, ok_bind, if_neg (fun h => hsel (hcode.mp h)), hstr]
      have hf : functionLabel r = if r.dif = 0x1F then cs! "More records follow" else cs! "Manufacturer specific" := by
        unfold functionLabel; rcases hsp with h | h <;> rw [h] <;> decide
      rw [hf]
    refine ⟨o, _, _, ho, hd, hz, hp, ?_, ?_, ?_⟩
    · simp [hsel, hsp]
    · simp [hsp]
    · rintro n ⟨⟩
      exact ⟨rfl, rfl, rfl, rfl, fun _ => ⟨rfl, rfl⟩, fun h => absurd hsp h, fun s' h' => by
        rw [hstr] at h'; cases h'; rfl⟩
  · obtain ⟨N, hN, hN0⟩ := normalize_delivered hr hsp o.real
    by_cases hc : o.code = 0
    · by_cases hn0 : N.code = 0
      · have hsel : ¬ meaning r = .selection := fun h => (hcode.mpr h) hc
        have hu : ¬ UnknownUnit r := fun h => (hN0.mpr h) hn0
        refine ⟨o, some ⟨(match o.str with | some s => .str s o.size | none => .num N.value), some N.unit, functionLabel r,
            some N.quantity, (if r.ndife = 0 then -1 else (deviceOf (r.dife.bytes.take r.ndife) : Int)),
            (if r.ndife = 0 then -1 else (tariffOf (r.dife.bytes.take r.ndife) : Int)),
            (storageOf r.dif (r.dife.bytes.take r.ndife) : Int)⟩, none, ho, hd, hz, ?_, ?_, ?_, ?_⟩
        · unfold parseVariableRecord
          rw [hs, ok_bind, ht, ok_bind, hdv, ok_bind, if_neg (show ¬ (r.dif = 0x0F ∨ r.dif = 0x1F) from hsp), ho, ok_bind, if_neg (fun h => h hc), hN, ok_bind]
          simp only
          rw [if_neg (fun h => h hn0), functionLabel_ordinary r hsp]
          cases o.str <;> rfl
        · simp [hsel, hu]
        · simp [hu]
        · rintro n ⟨⟩
          refine ⟨rfl, rfl, rfl, rfl, fun h => absurd h hsp, fun _ => ⟨N, hN, rfl, rfl, fun h => ?_⟩, fun s h => ?_⟩
          · simp only [h]
          · simp only [h]
      · have hu : UnknownUnit r := hN0.mp hn0
        refine ⟨o, none, o.str, ho, hd, hz, ?_, ?_, ?_, by simp⟩
        · unfold parseVariableRecord
          rw [hs, ok_bind, ht, ok_bind, hdv, ok_bind, if_neg (show ¬ (r.dif = 0x0F ∨ r.dif = 0x1F) from hsp), ho, ok_bind, if_neg (fun h => h hc), hN, ok_bind]
          simp only
          rw [if_pos hn0]
        · simp [hsp, hu]
        · simp [hsp, hu]
    · have hsel := hcode.mp hc
      refine ⟨o, none, o.str, ho, hd, hz, ?_, ?_, ?_, by simp⟩
      · unfold parseVariableRecord
        rw [hs, ok_bind, ht, ok_bind, hdv, ok_bind, if_neg (show ¬ (r.dif = 0x0F ∨ r.dif = 0x1F) from hsp), ho, ok_bind, if_pos hc]
      · simp [hsel]
      · rw [(d3 hsel).2]; split <;> rfl

/-- C69: the normaliser returns NULL exactly for "selection for readout" and for ordinary records with one of the two
unassigned primary VIFs; it never faults on a delivered record with a computable storage number. -/
theorem C69_accepts (r : Record) (hr : Delivered r) (hst : StorageOk r) (junk : Nat → Byte) :
    ∃ res leak, parseVariableRecord junk r = .ok (res, leak) ∧
      (res = none ↔ r.dif.toNat % 16 = 8 ∨ (¬ Special r ∧ UnknownUnit r)) := by
  obtain ⟨o, res, leak, _, _, _, hp, hn, _⟩ := parseVariableRecord_eq hr hst junk
  exact ⟨res, leak, hp, by rw [hn, meaning_selection]⟩

/-- C69: address fields and function label of the normalised record are those of the data record. -/
theorem C69_labels (r : Record) (hr : Delivered r) (hst : StorageOk r) (junk : Nat → Byte) (n : NRecord) (leak)
    (h : parseVariableRecord junk r = .ok (some n, leak)) :
    n.storage = (storageOf r.dif (r.dife.bytes.take r.ndife) : Int) ∧
    n.tariff = (if r.ndife = 0 then -1 else (tariffOf (r.dife.bytes.take r.ndife) : Int)) ∧
    n.device = (if r.ndife = 0 then -1 else (deviceOf (r.dife.bytes.take r.ndife) : Int)) ∧
    n.function = functionLabel r ∧ (Special r → n.unit = none ∧ n.quantity = none) := by
  obtain ⟨o, res, leak', _, _, _, hp, _, _, hc⟩ := parseVariableRecord_eq hr hst junk
  rw [hp] at h; injection h with h; injection h with h1 h2
  obtain ⟨a, b, c, d, e, _⟩ := hc n h1
  exact ⟨a, b, c, d, e⟩

/-- C69: a record carrying a number becomes that number normalised by the record's VIF (C37, C39), with the unit and
quantity of the VIF. -/
theorem C69_number (r : Record) (hr : Delivered r) (hst : StorageOk r) (junk : Nat → Byte) (x : Flt)
    (hx : (meaning r).number = some x) (hu : ¬ UnknownUnit r) :
    ∃ n N, parseVariableRecord junk r = .ok (some n, none) ∧ vibUnitNormalize r x = .ok (some N) ∧ N.code = 0 ∧
      n.value = .num N.value ∧ n.unit = some N.unit ∧ n.quantity = some N.quantity := by
  have hsp : ¬ Special r := by
    intro hsp
    have : ∃ bs, meaning r = .raw bs := by
      unfold meaning; rcases hsp with h | h <;> rw [h] <;> exact ⟨_, rfl⟩
    obtain ⟨bs, hb⟩ := this
    rw [hb] at hx; simp [Meaning.number] at hx
  obtain ⟨o, res, leak, _, hd, _, hp, hn, hl, hc⟩ := parseVariableRecord_eq hr hst junk
  obtain ⟨_, hstr, hreal⟩ := (decoded_split hd).1 x hx
  have hsel : ¬ meaning r = .selection := fun h => by rw [h] at hx; simp [Meaning.number] at hx
  cases res with
  | none => exact absurd (hn.mp rfl) (by simp [hsel, hu])
  | some n =>
    obtain ⟨_, _, _, _, _, f, _⟩ := hc n rfl
    obtain ⟨N, hN, u, k, v⟩ := f hsp
    rw [hreal] at hN
    obtain ⟨N', hN', hN0⟩ := normalize_delivered hr hsp x
    rw [hN] at hN'; injection hN' with hN'; injection hN' with hN'; subst hN'
    rw [if_neg (by simp [hu])] at hl
    subst hl
    refine ⟨n, N, hp, hN, ?_, ?_, u, k⟩
    · exact Decidable.byContradiction fun h => hu (hN0.mp h)
    · rw [v hstr]

/-- C69: a number that is infinite or not a number stays so.
(With the reserved VIF 0x6F, whose factor is 0, infinity becomes not-a-number: `C69_reserved`.) -/
theorem C69_not_finite (r : Record) (hr : Delivered r) (hst : StorageOk r) (junk : Nat → Byte) (x : Flt)
    (hx : (meaning r).number = some x) (hq : ∀ neg m, x ≠ .fin neg m) (n : NRecord) (leak)
    (h : parseVariableRecord junk r = .ok (some n, leak)) (hsp : ¬ Special r) (h6 : r.vif.toNat % 128 ≠ 0x6F) : n.value = .num x := by
  obtain ⟨o, res, leak', _, hd, _, hp, hn, _, hc⟩ := parseVariableRecord_eq hr hst junk
  obtain ⟨_, hstr, hreal⟩ := (decoded_split hd).1 x hx
  rw [hp] at h; injection h with h; injection h with h1 h2
  obtain ⟨_, _, _, _, _, f, _⟩ := hc n h1
  obtain ⟨N, hN, u, k, v⟩ := f hsp
  have hu : ¬ UnknownUnit r := fun hu => by
    have := hn.mpr (.inr ⟨hsp, hu⟩)
    rw [this] at h1; cases h1
  rw [hreal] at hN
  obtain ⟨N', hN', hN0⟩ := normalize_delivered hr hsp x
  rw [hN] at hN'; injection hN' with hN'; injection hN' with hN'; subst hN'
  rw [v hstr, normalize_infinite hr hsp x N hN (Decidable.byContradiction fun c => hu (hN0.mp c)) hq h6]

/-- C69: the reserved VIF 0x6F multiplies by zero: a finite number becomes a zero of the same sign, infinity is not a number. -/
theorem C69_reserved (r : Record) (x : Flt) (hv : r.vif = 0x6F) :
    ∃ N, vibUnitNormalize r x = .ok (some N) ∧ N.code = 0 ∧ N.unit = cs! "Reserved" ∧
      N.value = (match x with
        | .fin neg _ => .fin neg 0
        | .inf _ => .nan true
        | .nan neg => .nan neg) := by
  refine ⟨_, vibUnitNormalize_plain r x (by rw [hv]; decide) (by rw [hv]; decide), ?_⟩
  rw [vifUnitNormalize_row, hv, show rowOf ((((((0x6F : Byte).toNat % 128 : Nat) : Int)) % 4096).toNat &&& 0xF7F) =
    some (0, cs! "Reserved", cs! "Reserved") by decide +kernel]
  refine ⟨rfl, rfl, ?_⟩
  have h0 : Flt.lit 0 = .fin false 0 := by decide +kernel
  cases x with
  | fin neg m => simp [h0, Flt.mul, dbl_zero]
  | inf neg => simp [h0, Flt.mul]
  | nan neg => rfl

/-- C69: a record carrying a text (date, time point, string, raw bytes, nothing) becomes exactly that text. -/
theorem C69_words (r : Record) (hr : Delivered r) (hst : StorageOk r) (junk : Nat → Byte) (t : List Byte)
    (hx : (meaning r).words = some t) (hu : ¬ UnknownUnit r) :
    ∃ n s size, parseVariableRecord junk r = .ok (some n, none) ∧ n.value = .str s size ∧ cstr s = .ok t := by
  obtain ⟨o, res, leak, _, hd, _, hp, hn, hl, hc⟩ := parseVariableRecord_eq hr hst junk
  obtain ⟨_, s, hstr, hs⟩ := (decoded_split hd).2.1 t hx
  have hsel : ¬ meaning r = .selection := fun h => by rw [h] at hx; simp [Meaning.words] at hx
  cases res with
  | none => exact absurd (hn.mp rfl) (by simp [hsel, hu])
  | some n =>
    rw [if_neg (by simp [hu])] at hl
    subst hl
    exact ⟨n, s, o.size, hp, (hc n rfl).2.2.2.2.2.2 s hstr, hs⟩

example : StorageOk (sampleRec 0) ∧ storageOf (sampleRec 0).dif [] = 1 ∧ ¬ UnknownUnit (sampleRec 0) ∧
    (match parseVariableRecord (fun _ => 7) (sampleRec 0) with
      | .ok (some n, none) => decide (n.value = .str (cs! "2000-12-31" ++ [0]) 10 ∧ n.storage = 1 ∧
          n.function = cs! "Instantaneous value" ∧ n.unit = some (cs! "-"))
      | _ => false) = true := by
  refine ⟨⟨by decide +kernel, by decide +kernel⟩, by decide +kernel, by decide +kernel, by decide +kernel⟩
example : (match parseVariableRecord (fun _ => 7) (sampleRec 2) with
      | .ok (some n, none) => decide (n.value = .num (.lit (-2 / 1000)) ∧ n.unit = some (cs! "m^3"))
      | _ => false) = true := by decide +kernel
example : (match parseVariableRecord (fun _ => 7) (sampleRec 6) with
      | .ok (some n, none) => decide (n.function = cs! "Manufacturer specific" ∧ n.unit = none ∧ n.value = .str (cs! "02 01" ++ [0, 0]) 6)
      | _ => false) = true := by decide +kernel

/-! ### C70: allocated texts -/

/-- C70: no text allocated while normalising a delivered record is lost.
Missing: ordinary records with one of the two unassigned primary VIFs 0x7B, 0x7D (`C70_leak_violation`). -/
theorem C70_no_leak_partial (r : Record) (hr : Delivered r) (hst : StorageOk r) (junk : Nat → Byte)
    (hu : Special r ∨ ¬ UnknownUnit r) : ∃ res, parseVariableRecord junk r = .ok (res, none) := by
  obtain ⟨o, res, leak, _, _, _, hp, _, hl, _⟩ := parseVariableRecord_eq hr hst junk
  rw [if_neg (by rcases hu with h | h <;> simp [h])] at hl
  subst hl
  exact ⟨res, hp⟩

/-- A text record "A" with the unassigned VIF 0x7B. -/
def leaky : Frame := rsp 0x72 (hdr ++ [0x0D, 0x7B, 1, 0x41])

/-- C70 is false of the code: normalising this delivered record returns NULL and loses the allocated text. -/
theorem C70_leak_violation : ∃ r v', variableParse leaky VarData.zero = .ok (0, v') ∧ v'.records = [r] ∧
    parseVariableRecord (fun _ => 0) r = .ok (none, some (cs! "A" ++ [0])) := by
  refine ⟨_, _, rfl, rfl, ?_⟩
  decide +kernel

/-! ### C71: the size of a text value -/

/-- C71: the size reported with a text value is the number of characters stored before the terminator.
Missing: raw byte blocks, where it is one too large unless the block is empty (`C71_size_violation`). -/
theorem C71_size_partial (r : Record) (hr : Delivered r) (hst : StorageOk r) (junk : Nat → Byte) (n : NRecord) (leak)
    (h : parseVariableRecord junk r = .ok (some n, leak)) (s : List Byte) (size : Int) (hv : n.value = .str s size)
    (hraw : ∀ b bs, meaning r ≠ .raw (b :: bs)) : (s.length : Int) = size + 1 ∧ s.getLast? = some 0 := by
  obtain ⟨o, res, leak', hdec, hd, hz, hp, _, _, hc⟩ := parseVariableRecord_eq hr hst junk
  rw [hp] at h; injection h with h; injection h with h1 h2
  obtain ⟨_, _, _, _, _, f, g⟩ := hc n h1
  cases ho : o.str with
  | none =>
    by_cases hsp : Special r
    · have : ∃ bs, meaning r = .raw bs := by
        unfold meaning; rcases hsp with h | h <;> rw [h] <;> exact ⟨_, rfl⟩
      obtain ⟨bs, hb⟩ := this
      obtain ⟨_, s, hs, _⟩ := (decoded_split hd).2.1 (hexDump bs) (by rw [hb]; rfl)
      rw [ho] at hs; cases hs
    · obtain ⟨N, _, _, _, w⟩ := f hsp
      rw [w ho] at hv; cases hv
  | some s' =>
    rw [g s' ho] at hv
    injection hv with e1 e2
    subst e1 e2
    cases hM : meaning r with
    | empty => rw [hM] at hd hz; rw [hd.2] at ho; cases ho; rw [hz]; exact ⟨rfl, rfl⟩
    | int v => rw [hM] at hd; rw [hd.2.1] at ho; cases ho
    | real v => rw [hM] at hd; rw [hd.2.1] at ho; cases ho
    | bcd v => rw [hM] at hd; rw [hd.2.1] at ho; cases ho
    | selection => rw [hM] at hd; rw [hd.2] at ho; cases ho
    | date t =>
      rw [hM] at hd hz; rw [hd.2] at ho; cases ho; rw [hz]
      simp [sizeFor, dateText_length]
    | dateTime t =>
      rw [hM] at hd hz; rw [hd.2] at ho; cases ho; rw [hz]
      simp [sizeFor, dateTimeText_length]
    | text t => rw [hM] at hd hz; rw [hd.2] at ho; cases ho; rw [hz]; simp [sizeFor]
    | raw bs =>
      cases bs with
      | cons b bs => exact absurd hM (hraw b bs)
      | nil =>
        rw [hM] at hd hz
        obtain ⟨_, m, hm, hpre, hlen⟩ := hd
        rw [hm] at ho; cases ho
        rw [hz]
        match s', hlen, hpre with
        | [x], _, hpre => obtain ⟨t, ht⟩ := hpre; simp [hexDump] at ht; simp [sizeFor, ht.1]

/-- C71 is false of the code: for a block of 2 raw bytes the text has 5 characters but the size says 6. -/
theorem C71_size_violation : Delivered (sampleRec 6) ∧
    ∃ n, parseVariableRecord (fun _ => 7) (sampleRec 6) = .ok (some n, none) ∧
      ∃ s, n.value = .str s 6 ∧ cstr s = .ok (cs! "02 01") := by
  refine ⟨sampleRec_delivered 6 (by decide), ?_⟩
  have h : (match parseVariableRecord (fun _ => 7) (sampleRec 6) with
      | .ok (some n, none) => decide (n.value = .str (cs! "02 01" ++ [0, 0]) 6)
      | _ => false) = true := by decide +kernel
  cases hp : parseVariableRecord (fun _ => 7) (sampleRec 6) with
  | error e => rw [hp] at h; cases h
  | ok x =>
    obtain ⟨res, leak⟩ := x
    rw [hp] at h
    match res, leak, h with
    | some n, none, h => exact ⟨n, rfl, _, of_decide_eq_true h, by decide⟩

/-! ### C72: fixed-format counters -/

/-- C72: a fixed-format counter is normalised from its value (packed decimal or binary according to the status byte) and
the low six bits of its unit byte; NULL exactly when the normaliser refuses the unit; "Stored value" exactly when status
bit 6 is set; no address fields. -/
theorem C72_fixed (status unit : Byte) (d : List Byte) (h : 4 ≤ d.length) :
    let N := fixedNormalize unit.toNat (counterValue status d) (.lit 0)
    (N.code ≠ 0 → parseFixedRecord status unit d = .ok none) ∧
    (N.code = 0 → parseFixedRecord status unit d = .ok (some
      { value := .num N.value
        unit := some N.unit
        function := if status.toNat / 64 % 2 = 1 then cs! "Stored value" else cs! "Actual value"
        quantity := some N.quantity
        device := -1
        tariff := -1
        storage := 0 })) := by
  intro N
  have hf : fixedFunction status.toNat = if status.toNat / 64 % 2 = 1 then cs! "Stored value" else cs! "Actual value" := by
    rw [(C64_fixed FixedData.zero 0 status.toNat).2.2]
    unfold fixedFunctionText
    have e : ((status.toNat : Int) % 256).toNat = status.toNat := by have := status.toNat_lt; omega
    rw [e]
    exact forall_byte (P := fun b => (if b.toNat &&& 0x40 = 0x40 then cs! "Stored value" else cs! "Actual value") =
      if b.toNat / 64 % 2 = 1 then cs! "Stored value" else cs! "Actual value") (by decide +kernel) status
  have hp : parseFixedRecord status unit d = if N.code ≠ 0 then .ok none else .ok (some
      { value := .num N.value
        unit := some N.unit
        function := fixedFunction status.toNat
        quantity := some N.quantity
        device := -1
        tariff := -1
        storage := 0 }) := by
    unfold parseFixedRecord
    have hb : status &&& 0x80 = 0x00 ↔ ¬ 0x80 ≤ status.toNat :=
      forall_byte (P := fun b => b &&& 0x80 = 0x00 ↔ ¬ 0x80 ≤ b.toNat) (by decide +kernel) status
    by_cases hs : 0x80 ≤ status.toNat
    · rw [if_neg (fun c => hb.mp c hs), C12_long_decode d 4 (by decide) (by decide) h]
      have : counterValue status d = leInt (d.take 4) := if_pos hs
      simp only [ok_bind, N, this]
    · rw [if_pos (hb.mpr hs), bcdDecode_value d 4 (by decide) (by decide) h]
      have : counterValue status d = bcdValue (d.take 4) := if_neg hs
      simp only [ok_bind, N, this]
  rw [hp, hf]
  exact ⟨fun h => by rw [if_pos h], fun h => by rw [if_neg (fun c => c h)]⟩

example : parseFixedRecord 0x40 0x29 [0x78, 0x56, 0x34, 0x12] = .ok (some
    ⟨.num (.lit (12345678 / 1000)), some (cs! "m^3"), cs! "Stored value", some (cs! "Volume"), -1, -1, 0⟩) := by decide +kernel
example : parseFixedRecord 0x80 0x00 [1, 0, 0, 0] = .ok none := by decide +kernel

/-! Direct instances of the theorems above: the records of `sample` are a date, a date with time, the integer -2, the packed
decimal -123456, the real 1.5, a text, and a manufacturer block. -/

theorem sample_buff : (List.replicate 768 (7 : Byte)).length = 768 := List.length_replicate

example := C19_date (sampleRec 0) (sampleRec_delivered 0 (by decide)) (by decide +kernel) _ sample_buff (fun _ => 7)
example := C66_ieee_partial [0, 0, 0xC0, 0x3F, 9] (by decide)
example := C66_ieee_value 1 255 0 (by decide) (by decide) (by decide)
example := C66_portable_partial 0 0 0xC0 0x3F [9] (by decide)
example := C68_text (sampleRec 5) (sampleRec_delivered 5 (by decide)) _ sample_buff
example := C68_integer (sampleRec 2) (sampleRec_delivered 2 (by decide)) _ sample_buff (-2) rfl
/-- a record whose packed decimal is 12345678 -/
def bcdFrame : Frame := rsp 0x72 (hdr ++ [0x0C, 0x78, 0x78, 0x56, 0x34, 0x12])
def bcdRec : Record :=
  match variableParse bcdFrame VarData.zero with
  | .ok (0, v) => v.records.getD 0 Record.new
  | _ => Record.new
theorem bcdRec_delivered : Delivered bcdRec := by
  refine ⟨bcdFrame, VarData.zero, _, by decide, rfl, ?_⟩
  exact List.mem_singleton.mpr rfl
example := C68_bcd bcdRec bcdRec_delivered _ sample_buff [0x78, 0x56, 0x34, 0x12] rfl (by decide)
example := C68_real (sampleRec 4) (sampleRec_delivered 4 (by decide)) _ sample_buff false (3 / 2)
  (congrArg Meaning.real (by decide +kernel : ieee32 (leNat ((sampleRec 4).data.bytes.take 4)) = Flt.fin false (3 / 2)))
example := C81_raw_partial (sampleRec 6) (sampleRec_delivered 6 (by decide)) _ sample_buff [1, 2] (.inl (by decide +kernel))
theorem sample_storage (i : Nat) (h : i < 7) : StorageOk (sampleRec i) := by
  have : ∀ i : Fin 7, (sampleRec i).ndife ≤ 8 ∧ storageOf (sampleRec i).dif ((sampleRec i).dife.bytes.take (sampleRec i).ndife) < 2 ^ 31 := by
    decide +kernel
  exact this ⟨i, h⟩
example := C69_accepts (sampleRec 2) (sampleRec_delivered 2 (by decide)) (sample_storage 2 (by decide)) (fun _ => 7)
example := C69_number (sampleRec 2) (sampleRec_delivered 2 (by decide)) (sample_storage 2 (by decide)) (fun _ => 7) (.lit (-2)) (by decide +kernel) (by decide +kernel)
example : ∃ n leak, parseVariableRecord (fun _ => 7) (sampleRec 0) = .ok (some n, leak) ∧ n.storage = 1 ∧ n.tariff = -1 := by
  obtain ⟨res, leak, h1, h2⟩ := C69_accepts (sampleRec 0) (sampleRec_delivered 0 (by decide)) (sample_storage 0 (by decide)) (fun _ => 7)
  cases res with
  | none => exact absurd (h2.mp rfl) (by decide +kernel)
  | some n =>
    obtain ⟨a, b, _⟩ := C69_labels (sampleRec 0) (sampleRec_delivered 0 (by decide)) (sample_storage 0 (by decide)) (fun _ => 7) n leak h1
    exact ⟨n, leak, h1, a.trans (by decide +kernel), b.trans (by decide +kernel)⟩
example := C69_reserved { Record.new with vif := 0x6F } (.fin true 3) rfl
example := C70_no_leak_partial (sampleRec 5) (sampleRec_delivered 5 (by decide)) (sample_storage 5 (by decide)) (fun _ => 7) (.inr (by decide +kernel))
/-- a record with the real value +infinity -/
def infFrame : Frame := rsp 0x72 (hdr ++ [0x05, 0x13, 0, 0, 0x80, 0x7F])
def infRec : Record :=
  match variableParse infFrame VarData.zero with
  | .ok (0, v) => v.records.getD 0 Record.new
  | _ => Record.new
theorem infRec_delivered : Delivered infRec := by
  refine ⟨infFrame, VarData.zero, _, by decide, rfl, ?_⟩
  exact List.mem_singleton.mpr rfl
example : ∃ n leak, parseVariableRecord (fun _ => 7) infRec = .ok (some n, leak) ∧ n.value = .num (.inf false) := by
  have hs : StorageOk infRec := ⟨by decide +kernel, by decide +kernel⟩
  obtain ⟨res, leak, h1, h2⟩ := C69_accepts infRec infRec_delivered hs (fun _ => 7)
  cases res with
  | none => exact absurd (h2.mp rfl) (by decide +kernel)
  | some n =>
    exact ⟨n, leak, h1, C69_not_finite infRec infRec_delivered hs (fun _ => 7) (.inf false) (by decide +kernel) (by intro a b c; cases c) n leak h1
      (by decide +kernel) (by decide +kernel)⟩
example : ∃ n leak s size, parseVariableRecord (fun _ => 7) (sampleRec 5) = .ok (some n, leak) ∧ n.value = .str s size ∧ (s.length : Int) = size + 1 := by
  refine ⟨_, _, cs! "ABC" ++ [0], 3, rfl, by decide +kernel, ?_⟩
  exact (C71_size_partial (sampleRec 5) (sampleRec_delivered 5 (by decide)) (sample_storage 5 (by decide)) (fun _ => 7) _ _ rfl _ _
    (by decide +kernel) (by intro b bs h; exact absurd h (by intro c; cases c))).1

end Mbus
