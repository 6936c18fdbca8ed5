import Verif.Model.Platform
import Verif.Props.CmdLine
import Verif.Props.Value
import Verif.Lemmas.Xml
import Verif.Model.Termios
/-
C130: the data types of the machine.  What libmbus reads does not depend on the width of `long` (32 bits or more) or on the signedness of
plain `char`; where it does, the theorems say exactly how.
-/
namespace Mbus
open Spec

/-! ### the model of the other modules is the machine with 64-bit `long` -/

theorem fit_lp64 : Machine.lp64.fit = int64 := by
  funext z
  unfold Machine.fit int64 isInt64
  have e1 : Machine.lp64.longMin = -9223372036854775808 := by decide
  have e2 : Machine.lp64.longMax = 9223372036854775807 := by decide
  rw [e1, e2]
  by_cases h : -9223372036854775808 ≤ z ∧ z ≤ 9223372036854775807
  · rw [if_pos h]; simp [h.1, h.2]
  · rw [if_neg h, if_neg]
    simp only [Bool.and_eq_true, decide_eq_true_eq]
    exact h

/-- C130: the functions of this module on the 64-bit machine are those of the other modules. -/
theorem C130_same_model : longDecodeOn .lp64 = longDecode ∧ floatDecodePortableOn .lp64 = floatDecodePortable ∧ atolOn .lp64 = atol ∧
    atoiOn .lp64 = atoi := by
  refine ⟨?_, ?_, ?_, ?_⟩
  · funext d n; unfold longDecodeOn longDecode; rw [fit_lp64]
  · funext d; unfold floatDecodePortableOn floatDecodePortable; rw [fit_lp64]
  · funext s; rfl
  · funext s; rfl

/-! ### integers -/

theorem two_pow_pred {w : Nat} (h : 32 ≤ w) : (2147483648 : Int) ≤ 2 ^ (w - 1) := by
  have : 2 ^ 31 ≤ 2 ^ (w - 1) := Nat.pow_le_pow_right (by decide) (by omega)
  have := Int.ofNat_le.mpr this
  rw [Int.natCast_pow] at this
  simpa using this

theorem fit_of {P : Machine} {z : Int} (h1 : P.longMin ≤ z) (h2 : z ≤ P.longMax) : P.fit z = .ok z := by
  unfold Machine.fit; rw [if_pos ⟨h1, h2⟩]

theorem fit_not {P : Machine} {z : Int} (h : ¬ (P.longMin ≤ z ∧ z ≤ P.longMax)) : P.fit z = .error .overflow := by
  unfold Machine.fit; rw [if_neg h]

/-- accumulate in a `long`: the value or the overflow -/
theorem acc_fit (P : Machine) (hP : P.longMin ≤ 0) (h0 : 0 ≤ P.longMax) (g : Byte → Byte) (l : List Byte) :
    l.reverse.foldlM (fun (v : Int) (b : Byte) => do let s ← P.fit (v * 256); P.fit (s + ((g b).toNat : Int))) 0 =
      if (leNat (l.map g) : Int) ≤ P.longMax then .ok (leNat (l.map g) : Int) else .error .overflow := by
  induction l with
  | nil => simp [leNat, h0]
  | cons b bs ih =>
    rw [List.reverse_cons, List.foldlM_append, ih]
    have hb := (g b).toNat_lt
    simp only [List.map_cons, leNat]
    generalize hx : leNat (bs.map g) = x
    generalize hM : P.longMax = M at *
    by_cases h1 : (x : Int) ≤ M
    · rw [if_pos h1]
      simp only [ok_bind, List.foldlM_cons, List.foldlM_nil, pure_eq_ok]
      by_cases h2 : (x : Int) * 256 ≤ M
      · rw [fit_of (by omega) (by omega)]
        simp only [ok_bind]
        by_cases h3 : (x : Int) * 256 + (g b).toNat ≤ M
        · rw [fit_of (by omega) (by omega), if_pos (by omega)]
          simp only [ok_bind]
          congr 1
          omega
        · rw [fit_not (by omega), if_neg (by omega)]
          rfl
      · rw [fit_not (by omega), if_neg (by omega)]
        rfl
    · rw [if_neg h1, if_neg (by omega)]
      rfl

/-- C130: `mbus_data_long_decode` on every machine, for every array and every size: the little-endian two's complement integer in the
bytes, and signed overflow (undefined) exactly when `long` cannot hold it. -/
theorem C130_long_decode (P : Machine) (hw : 32 ≤ P.longBits) (d : List Byte) (size : Nat) (h1 : 1 ≤ size) (hs : size ≤ d.length) :
    longDecodeOn P d size =
      if P.longMin ≤ leInt (d.take size) ∧ leInt (d.take size) ≤ P.longMax then .ok (0, leInt (d.take size)) else .error .overflow := by
  have hpw := two_pow_pred hw
  have hmm : P.longMin = -P.longMax - 1 := by unfold Machine.longMin Machine.longMax; omega
  have hM : 2147483647 ≤ P.longMax := by unfold Machine.longMax; omega
  have hlen : (d.take size).length = size := by simp; omega
  generalize hl : d.take size = l at *
  have hne : l ≠ [] := by intro h; subst h; simp at hlen; omega
  have hgl : rd d (size - 1) = .ok (l.getLast hne) := by
    rw [rd_ok (by omega)]
    congr 1
    subst hl
    rw [List.getLast_eq_getElem]
    simp [hlen]
  have htop := leNat_top l hne
  have hlt := leNat_lt l
  have hcomp := leNat_compl l
  rw [hlen] at htop hlt hcomp
  unfold longDecodeOn intDecodeWith
  rw [if_neg (by omega), hgl]
  simp only [ok_bind, forDown_eq d size _ _ hs, hl]
  have hcast : ((256 ^ size : Nat) : Int) = (256 : Int) ^ size := by simp
  by_cases hn : 128 ≤ (l.getLast hne).toNat
  · have hd : decide ((l.getLast hne).toNat &&& 128 ≠ 0) = true := by simpa using (land_80 _).mpr hn
    have h2 := htop.mp hn
    have hacc := acc_fit P (by omega) (by omega) (fun b => b ^^^ 0xFF) l
    have hc : (l.map fun b => b ^^^ 0xFF) = compl l := rfl
    rw [hc] at hacc
    simp only [hd, if_true]
    rw [hacc]
    have hle : leInt l = (leNat l : Int) - 256 ^ size := by
      unfold leInt; rw [hlen, if_neg (by omega)]
    have hv : ((leNat (compl l) : Nat) : Int) = - leInt l - 1 := by omega
    by_cases hf : P.longMin ≤ leInt l ∧ leInt l ≤ P.longMax
    · rw [if_pos hf, if_pos (by omega)]
      simp only [ok_bind]
      rw [fit_of (by omega) (by omega)]
      simp only [ok_bind]
      rw [fit_of (by omega) (by omega)]
      simp only [ok_bind]
      congr 2
      omega
    · rw [if_neg hf, if_neg (by omega)]
      rfl
  · have hd : decide ((l.getLast hne).toNat &&& 128 ≠ 0) = false := by
      have := mt (land_80 (l.getLast hne)).mp hn
      simpa using this
    have h2 := mt htop.mpr hn
    have hacc := acc_fit P (by omega) (by omega) (fun b => b) l
    simp only [hd, Bool.false_eq_true, if_false]
    simp only [List.map_id'] at hacc
    rw [hacc]
    have hle : leInt l = (leNat l : Int) := by
      unfold leInt; rw [hlen, if_pos (by omega)]
    rw [hle]
    by_cases hf : (leNat l : Int) ≤ P.longMax
    · rw [if_pos hf, if_pos (by omega)]
      simp only [ok_bind]
    · rw [if_neg hf, if_neg (by omega)]
      rfl

/-- C130: up to four bytes every machine decodes alike; up to eight bytes 64-bit machines never overflow. -/
theorem C130_long_decode_same (P Q : Machine) (hP : 32 ≤ P.longBits) (hQ : 32 ≤ Q.longBits) (d : List Byte) (size : Nat) (h4 : size ≤ 4) :
    longDecodeOn P d size = longDecodeOn Q d size := by
  by_cases h1 : 1 ≤ size
  · by_cases hs : size ≤ d.length
    · have key : ∀ R : Machine, 32 ≤ R.longBits → R.longMin ≤ leInt (d.take size) ∧ leInt (d.take size) ≤ R.longMax := by
        intro R hR
        have hpw := two_pow_pred hR
        have hlt := leNat_lt (d.take size)
        have hlen : (d.take size).length = size := by simp; omega
        have h256 : 256 ^ size ≤ 256 ^ 4 := Nat.pow_le_pow_right (by decide) h4
        have hcast : ((256 ^ size : Nat) : Int) = (256 : Int) ^ size := by simp
        have e : leInt (d.take size) = if 2 * leNat (d.take size) < 256 ^ size then (leNat (d.take size) : Int)
            else (leNat (d.take size) : Int) - (256 ^ size : Nat) := by
          unfold leInt; rw [hlen, hcast]
        rw [hlen] at hlt
        unfold Machine.longMin Machine.longMax
        rw [e]
        generalize 256 ^ size = X at *
        split <;> omega
      rw [C130_long_decode P hP d size h1 hs, C130_long_decode Q hQ d size h1 hs, if_pos (key P hP), if_pos (key Q hQ)]
    · have hr : rd d (size - 1) = rd d (size - 1) := rfl
      by_cases hs' : d.length ≤ size - 1
      · unfold longDecodeOn intDecodeWith
        rw [if_neg (by omega), if_neg (by omega)]
        have : ∃ e, rd d (size - 1) = .error e := by
          unfold rd
          rw [List.getElem?_eq_none (by omega)]
          exact ⟨_, rfl⟩
        obtain ⟨e, he⟩ := this
        rw [he]
        rfl
      · omega
  · unfold longDecodeOn intDecodeWith
    rw [if_pos (by omega), if_pos (by omega)]

/-! ### the portable float decoder -/

theorem fold32On (P : Machine) (hw : 32 ≤ P.longBits) (b0 b1 b2 b3 : Byte) (rest : List Byte) :
    forDown (b0 :: b1 :: b2 :: b3 :: rest) 4 (0 : Int) (fun b t => do
      let s ← P.fit (t * 256)
      P.fit (s + (b.toNat : Int))) =
      if (leNat [b0, b1, b2, b3] : Int) ≤ P.longMax then .ok (leNat [b0, b1, b2, b3] : Int) else .error .overflow := by
  have hpw := two_pow_pred hw
  rw [forDown_eq _ 4 _ _ (by simp)]
  have := acc_fit P (by unfold Machine.longMin; omega) (by unfold Machine.longMax; omega) (fun b => b) [b0, b1, b2, b3]
  simp only [List.map_id'] at this
  exact this

/-- C130: the decoder for machines without IEEE 754 floats (`_HAS_NON_IEEE754_FLOAT`) overflows its `long` (undefined behaviour) exactly on
machines with 32-bit `long` for the floats with the sign bit set; on every other machine and for every other float it computes what it
computes on a 64-bit machine. -/
theorem C130_portable_float (P : Machine) (hw : 32 ≤ P.longBits) (b0 b1 b2 b3 : Byte) (rest : List Byte) :
    floatDecodePortableOn P (b0 :: b1 :: b2 :: b3 :: rest) =
      if P.longBits = 32 ∧ 128 ≤ b3.toNat then .error .overflow else floatDecodePortable (b0 :: b1 :: b2 :: b3 :: rest) := by
  have h0 := b0.toNat_lt
  have h1 := b1.toNat_lt
  have h2 := b2.toNat_lt
  have h3 := b3.toNat_lt
  have hv : leNat [b0, b1, b2, b3] = b0.toNat + 256 * (b1.toNat + 256 * (b2.toNat + 256 * b3.toNat)) := by simp [leNat]
  have hlt := leNat_lt [b0, b1, b2, b3]
  have hfit : ((leNat [b0, b1, b2, b3] : Int) ≤ P.longMax) ↔ ¬ (P.longBits = 32 ∧ 128 ≤ b3.toNat) := by
    rw [hv]
    by_cases h32 : P.longBits = 32
    · have : P.longMax = 2147483647 := by unfold Machine.longMax; rw [h32]; rfl
      rw [this]
      omega
    · have : (4294967296 : Int) ≤ 2 ^ (P.longBits - 1) := by
        have : 2 ^ 32 ≤ 2 ^ (P.longBits - 1) := Nat.pow_le_pow_right (by decide) (by omega)
        have := Int.ofNat_le.mpr this
        rw [Int.natCast_pow] at this
        simpa using this
      unfold Machine.longMax
      omega
  unfold floatDecodePortableOn floatDecodePortable
  rw [fold32On P hw, fold32]
  by_cases hc : P.longBits = 32 ∧ 128 ≤ b3.toNat
  · rw [if_pos hc, if_neg (fun h => hfit.mp h hc)]
    rfl
  · rw [if_neg hc, if_pos (hfit.mpr hc)]

/-! ### records -/

theorem toLong_of {P : Machine} (hw : 32 ≤ P.longBits) {z : Int} (h1 : P.longMin ≤ z) (h2 : z ≤ P.longMax) : P.toLong z = z := by
  have e : (2 : Int) ^ P.longBits = 2 * 2 ^ (P.longBits - 1) := by
    obtain ⟨k, hk⟩ : ∃ k, P.longBits = k + 1 := ⟨P.longBits - 1, by omega⟩
    rw [hk, Int.pow_succ, Nat.add_sub_cancel, Int.mul_comm]
  unfold Machine.longMin at h1
  unfold Machine.longMax at h2
  unfold Machine.toLong
  rw [e]
  generalize (2 : Int) ^ (P.longBits - 1) = X at *
  rw [Int.emod_eq_of_lt (by omega) (by omega)]
  omega

theorem assembleOn_eq (P : Machine) (hw : 32 ≤ P.longBits) : assembleOn P = assemble := by
  have hpw := two_pow_pred hw
  funext dife part step n init bit0
  unfold assembleOn assemble
  congr 1
  funext i s
  cases dife.rd i with
  | error e => rfl
  | ok b =>
    simp only [ok_bind]
    by_cases h1 : 32 ≤ s.2
    · rw [if_pos h1, if_pos h1]
    · rw [if_neg h1, if_neg h1]
      generalize part b <<< s.2 = z
      by_cases h2 : z > 2147483647
      · rw [if_pos h2, if_pos h2]
      · rw [if_neg h2, if_neg h2, toLong_of hw (by unfold Machine.longMin; omega) (by unfold Machine.longMax; omega), Int.toNat_natCast]

/-- C130: storage number and tariff of any record are the same on every machine. -/
theorem C130_storage_tariff (P : Machine) (hw : 32 ≤ P.longBits) : storageNumberOn P = storageNumber ∧ tariffOn P = tariff := by
  constructor
  · funext r; unfold storageNumberOn storageNumber; rw [assembleOn_eq P hw]
  · funext r; unfold tariffOn tariff; rw [assembleOn_eq P hw]

/-- C130: `mbus_data_variable_record_xml` and `mbus_parse_variable_record` give the same for any record on every machine. -/
theorem C130_record (P : Machine) (hw : 32 ≤ P.longBits) : recordXmlOn P = recordXml ∧ parseVariableRecordOn P = parseVariableRecord := by
  obtain ⟨h1, h2⟩ := C130_storage_tariff P hw
  constructor
  · funext junk r stamp cnt frameCnt
    have ht : tariffXmlOn P = tariffXml := by
      funext b r
      unfold tariffXmlOn tariffXml
      rw [h2]
    unfold recordXmlOn recordXml recordFieldsXmlOn recordFieldsXml
    rw [ht, h1]
  · funext junk r
    unfold parseVariableRecordOn parseVariableRecord
    rw [h1, h2]
    rfl

theorem charOf_low (P : Machine) (b : Byte) : P.charOf b % 256 = b.toNat := by
  have := b.toNat_lt
  unfold Machine.charOf
  split <;> omega

theorem fixedFunction_char (P : Machine) (b : Byte) : fixedFunction (P.charOf b) = fixedFunction b.toNat := by
  have := b.toNat_lt
  unfold fixedFunction fixedFunctionText
  rw [charOf_low, show ((b.toNat : Int) % 256) = (b.toNat : Int) by omega]

theorem fixedNormalize_char (P : Machine) (b : Byte) (v : Int) (old : Flt) : fixedNormalize (P.charOf b) v old = fixedNormalize b.toNat v old := by
  have h := charOf_low P b
  have : P.charOf b % 64 = (b.toNat : Int) % 64 := by omega
  unfold fixedNormalize
  simp only [this]

theorem bcd4_range (d : List Byte) (v : Int) (h : bcdDecode d 4 = .ok v) : -2147483648 < v ∧ v < 2147483648 := by
  by_cases hs : 4 ≤ d.length
  · rw [bcdDecode_eq d 4 (by decide) (by decide) hs] at h
    have hb := bcdVal_small (d.take 4) (by simp; omega)
    have := Except.ok.inj h
    rw [← this]
    split <;> omega
  · exfalso
    unfold bcdDecode at h
    obtain ⟨x, hx, _⟩ := bind_eq_ok.mp h
    rw [forDown] at hx
    obtain ⟨y, hy, _⟩ := bind_eq_ok.mp hx
    rw [rd_eq_ok, List.getElem?_eq_none (by omega)] at hy
    cases hy

/-- C130: `mbus_parse_fixed_record` gives the same record on every machine, for every pair of `char` arguments and any counter, although
one passes negative `char`s, another positive ones. -/
theorem C130_fixed_record (P : Machine) (hw : 32 ≤ P.longBits) : parseFixedRecordOn P = parseFixedRecord := by
  have hpw := two_pow_pred hw
  funext status unit d
  have hm : ((P.charOf status % 256).toNat &&& 0x80 = 0x00) ↔ (status &&& 0x80 = 0x00) := by
    rw [charOf_low, Int.toNat_natCast]
    exact forall_byte (P := fun b => (b.toNat &&& 0x80 = 0x00) ↔ (b &&& 0x80 = 0x00)) (by decide +kernel) status
  have hl : longDecodeOn P d 4 = longDecode d 4 := by
    rw [← C130_same_model.1]
    exact C130_long_decode_same P .lp64 hw (by decide) d 4 (by decide)
  unfold parseFixedRecordOn parseFixedRecord
  simp only [fixedFunction_char, fixedNormalize_char, hl, hm]
  by_cases hs : status &&& 128 = 0
  · rw [if_pos hs, if_pos hs]
    cases hx : bcdDecode d 4 with
    | error e => rfl
    | ok v =>
      have := bcd4_range d v hx
      simp only [ok_bind]
      rw [toLong_of hw (by unfold Machine.longMin; omega) (by unfold Machine.longMax; omega)]
  · rw [if_neg hs, if_neg hs]

/-! ### secondary addresses -/

/-- C130: `mbus_frame_get_secondary_address` gives the same text for any telegram on every machine. -/
theorem C130_secondary_address (P : Machine) (hw : 32 ≤ P.longBits) : getSecondaryAddressOn P = getSecondaryAddress := by
  funext f
  unfold getSecondaryAddressOn getSecondaryAddress
  by_cases hc : f.ci ≠ 0x72
  · rw [if_pos hc, if_pos hc]
  · rw [if_neg hc, if_neg hc]
    congr 1
    funext x
    obtain ⟨r, x⟩ := x
    dsimp only
    obtain ⟨h1, h2⟩ := bcdDecodeHex4 x.var.header.idBcd
    have hu : P.toULong (leNat x.var.header.idBcd.bytes : Int) = (leNat x.var.header.idBcd.bytes : Int) := by
      have : 2 ^ 32 ≤ 2 ^ P.longBits := Nat.pow_le_pow_right (by decide) hw
      have := Int.ofNat_le.mpr this
      rw [Int.natCast_pow, Int.natCast_pow] at this
      unfold Machine.toULong
      exact Int.emod_eq_of_lt (by omega) (by simp at this ⊢; omega)
    rw [h1]
    simp only [ok_bind, hu]

/-! ### numbers on the command line -/

/-- C130: between two machines a number on the command line is cut to the range of the narrower `long`. -/
theorem C130_number (P Q : Machine) (hP : 32 ≤ P.longBits) (h : P.longBits ≤ Q.longBits) (s : List Byte) :
    atolOn P s = max P.longMin (min P.longMax (atolOn Q s)) := by
  have hpw := two_pow_pred hP
  have hle : (2 : Int) ^ (P.longBits - 1) ≤ 2 ^ (Q.longBits - 1) := by
    have : 2 ^ (P.longBits - 1) ≤ 2 ^ (Q.longBits - 1) := Nat.pow_le_pow_right (by decide) (by omega)
    have := Int.ofNat_le.mpr this
    rw [Int.natCast_pow, Int.natCast_pow] at this
    exact this
  have clamp : ∀ (neg : Bool) (n : Nat), (if neg then max P.longMin (-(n : Int)) else min P.longMax (n : Int)) =
      max P.longMin (min P.longMax (if neg then max Q.longMin (-(n : Int)) else min Q.longMax (n : Int))) := by
    intro neg n
    unfold Machine.longMin Machine.longMax
    generalize (2 : Int) ^ (P.longBits - 1) = X at *
    generalize (2 : Int) ^ (Q.longBits - 1) = Y at *
    cases neg
    · simp only [Bool.false_eq_true, if_false]; omega
    · simp only [if_true]; omega
  exact clamp _ _

/-- C130: ports and baud rates on the command line mean the same on every machine, for every text. -/
theorem C130_port_baud (P Q : Machine) (hP : 32 ≤ P.longBits) (hQ : 32 ≤ Q.longBits) (s : List Byte) :
    ((atolOn P s < 0 ∨ atolOn P s > 0xFFFF) ↔ (atolOn Q s < 0 ∨ atolOn Q s > 0xFFFF)) ∧
    (¬ (atolOn P s < 0 ∨ atolOn P s > 0xFFFF) → atolOn P s = atolOn Q s) ∧
    baudSpeed (atolOn P s) = baudSpeed (atolOn Q s) := by
  have p1 := two_pow_pred hP
  have p2 := two_pow_pred hQ
  have key : (atolOn P s = atolOn Q s) ∨ (atolOn P s < 0 ∧ atolOn Q s < 0) ∨ (2147483647 ≤ atolOn P s ∧ 2147483647 ≤ atolOn Q s) := by
    rcases Nat.le_total P.longBits Q.longBits with h | h
    · have := C130_number P Q hP h s
      unfold Machine.longMin Machine.longMax at this
      omega
    · have := C130_number Q P hQ h s
      unfold Machine.longMin Machine.longMax at this
      omega
  refine ⟨by omega, by omega, ?_⟩
  have none_of : ∀ z : Int, z < 0 ∨ 2147483647 ≤ z → baudSpeed z = none := by
    intro z hz
    unfold baudSpeed
    repeat rw [if_neg (by omega)]
  rcases key with k | k | k
  · rw [k]
  · rw [none_of _ (by omega), none_of _ (by omega)]
  · rw [none_of _ (by omega), none_of _ (by omega)]

/-- C130: the numbers the tools convert to `int` (addresses, retries, subcodes): with 32-bit `long` a number outside `int` becomes the
nearest `int`; a number inside is the same everywhere. -/
theorem C130_int (P Q : Machine) (hP : P.longBits = 32) (hQ : 32 ≤ Q.longBits) (s : List Byte) :
    atoiOn P s = max (-2147483648) (min 2147483647 (atolOn Q s)) ∧
    (-2147483648 ≤ atolOn Q s ∧ atolOn Q s ≤ 2147483647 → atoiOn P s = atoiOn Q s) := by
  have h := C130_number P Q (by omega) (by omega) s
  have e1 : P.longMin = -2147483648 := by unfold Machine.longMin; rw [hP]; rfl
  have e2 : P.longMax = 2147483647 := by unfold Machine.longMax; rw [hP]; rfl
  rw [e1, e2] at h
  unfold atoiOn
  omega

/-- C130: the same command addresses different meters on different machines: `4294967297` is meter 1 where `long` has 64 bits, and no
valid address where it has 32. -/
theorem C130_int_violation : atoiOn .lp64 (cs! "4294967297") = 1 ∧ atoiOn .arm32 (cs! "4294967297") = 2147483647 ∧
    atoiOn .i386 (cs! "4294967297") = 2147483647 := by decide +kernel

/-! ### examples: the hypotheses are met by real machines, and the machines do differ -/

example : 32 ≤ Machine.arm32.longBits ∧ Machine.arm32.charOf 0xF3 = 243 ∧ Machine.i386.charOf 0xF3 = -13 := by decide +kernel

example : longDecodeOn .arm32 [0x00, 0x00, 0x00, 0x80] 4 = .ok (0, -2147483648) ∧
    longDecodeOn .arm32 [0x00, 0x00, 0x00, 0x80, 0x00, 0x00] 6 = .error .overflow ∧
    longDecodeOn .lp64 [0x00, 0x00, 0x00, 0x80, 0x00, 0x00] 6 = .ok (0, 2147483648) := by decide +kernel

example : floatDecodePortableOn .i386 [0x00, 0x00, 0x80, 0xBF] = .error .overflow ∧
    floatDecodePortableOn .lp64 [0x00, 0x00, 0x80, 0xBF] = .ok (.fin true 1) := by decide +kernel

end Mbus
