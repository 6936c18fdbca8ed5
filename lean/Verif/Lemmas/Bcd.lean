import Verif.Lemmas.Num
/- Helper lemmas for the BCD codecs. -/
namespace Mbus
open Spec

theorem shr4 : ∀ b : Byte, (b >>> 4).toNat = b.toNat / 16 := forall_byte (by decide +kernel)
theorem shr4_and : ∀ b : Byte, (b >>> 4 &&& 0xF).toNat = b.toNat / 16 := forall_byte (by decide +kernel)
theorem and_F : ∀ b : Byte, (b &&& 0xF).toNat = b.toNat % 16 := forall_byte (by decide +kernel)
theorem shr4_lt : ∀ b : Byte, (b >>> 4 < 0xA) ↔ b.toNat / 16 < 10 := forall_byte (by decide +kernel)
theorem shr4_F : ∀ b : Byte, (b >>> 4 = 0xF) ↔ b.toNat / 16 = 15 := forall_byte (by decide +kernel)

/-- What the decoder computes before the sign: a high nibble above 9 counts as 0, the low nibble is taken as is. -/
def bcdVal : List Byte → Nat
  | [] => 0
  | b :: bs => b.toNat % 16 + 10 * (if b.toNat / 16 < 10 then b.toNat / 16 else 0) + 100 * bcdVal bs

theorem bcdVal_bound (l : List Byte) : 99 * bcdVal l + 105 ≤ 105 * 100 ^ l.length := by
  induction l with
  | nil => simp [bcdVal]
  | cons b bs ih =>
    simp only [bcdVal, List.length_cons, Nat.pow_succ]
    split <;> omega

theorem bcdVal_eq (l : List Byte) (h : IsBcd l) : bcdVal l = bcdNat l := by
  induction l with
  | nil => rfl
  | cons b bs ih =>
    have h1 := h b (by simp)
    have h2 : IsBcd bs := fun x hx => h x (by simp [hx])
    simp only [bcdVal, bcdNat, ih h2]
    rw [if_pos (by omega)]

theorem pow100_le {n : Nat} (h : n ≤ 9) : 100 ^ n ≤ 1000000000000000000 :=
  Nat.le_trans (Nat.pow_le_pow_right (by omega) h) (by decide)

theorem bcdVal_lt (l : List Byte) (h : l.length ≤ 9) : bcdVal l ≤ 1100000000000000000 := by
  have h1 := bcdVal_bound l
  have h2 := pow100_le h
  omega

theorem bcd_fold (l : List Byte) (h : l.length ≤ 9) :
    l.reverse.foldlM (fun (v : Int) (b : Byte) => do
      let v ← int64 (v * 10)
      let v ← if b >>> 4 < 0xA then int64 (v + ((b >>> 4 &&& 0xF).toNat : Int)) else .ok v
      let v ← int64 (v * 10)
      int64 (v + ((b &&& 0xF).toNat : Int))) 0 = .ok (bcdVal l : Int) := by
  induction l with
  | nil => simp [bcdVal]
  | cons b bs ih =>
    have hb := bcdVal_lt (b :: bs) h
    have hlen : bs.length ≤ 9 := by simp at h; omega
    rw [List.reverse_cons, List.foldlM_append, ih hlen]
    simp only [ok_bind, List.foldlM_cons, List.foldlM_nil]
    simp only [bcdVal] at hb
    have h16 : b.toNat < 256 := b.toNat_lt
    simp only [shr4_lt, and_F, shr4]
    by_cases hh : b.toNat / 16 < 10
    · rw [if_pos hh] at hb
      rw [int64_ok _ (by omega) (by omega)]
      simp only [ok_bind, hh, if_true]
      rw [int64_ok _ (by omega) (by omega)]
      simp only [ok_bind]
      rw [int64_ok _ (by omega) (by omega)]
      simp only [ok_bind]
      rw [int64_ok _ (by omega) (by omega)]
      simp only [ok_bind, pure_eq_ok, bcdVal]
      rw [if_pos hh]
      congr 1
      omega
    · rw [if_neg hh] at hb
      rw [int64_ok _ (by omega) (by omega)]
      simp only [ok_bind, hh, if_false]
      rw [int64_ok _ (by omega) (by omega)]
      simp only [ok_bind]
      rw [int64_ok _ (by omega) (by omega)]
      simp only [ok_bind, pure_eq_ok, bcdVal]
      rw [if_neg hh]
      congr 1
      omega

/-- Closed form of the decoder on 1 to 9 bytes. -/
theorem bcdDecode_eq (d : List Byte) (size : Nat) (h1 : 1 ≤ size) (h9 : size ≤ 9) (hs : size ≤ d.length) :
    bcdDecode d size = .ok (if (d[size - 1]'(by omega)).toNat / 16 = 15 then -(bcdVal (d.take size) : Int)
      else (bcdVal (d.take size) : Int)) := by
  have hlen : (d.take size).length ≤ 9 := by simp; omega
  have hb := bcdVal_lt _ hlen
  unfold bcdDecode
  rw [forDown_eq d size _ _ hs, bcd_fold _ hlen]
  simp only [ok_bind]
  rw [if_neg (by omega), rd_ok (by omega)]
  simp only [ok_bind, shr4_F]
  split
  · rw [int64_ok _ (by omega) (by omega)]
    congr 1
    omega
  · rfl

/-! encoder -/

/-- little-endian packed digits of `v` -/
def bcdBytes : Nat → Nat → List Byte
  | 0, _ => []
  | n + 1, v => UInt8.ofNat ((v / 10 % 10) * 16 + v % 10) :: bcdBytes n (v / 100)

@[simp] theorem bcdBytes_length (n v : Nat) : (bcdBytes n v).length = n := by
  induction n generalizing v <;> simp_all [bcdBytes]

theorem pack_digits : ∀ a b : Fin 10, (a.val <<< 4) ||| b.val = a.val * 16 + b.val := by decide +kernel

theorem bcdEncode_loop (size : Nat) (d : List Byte) (n i v : Nat) (h : i + n ≤ size) (hs : size ≤ d.length) :
    forN n i (d, v) (fun i (s : List Byte × Nat) => do
      let v0 := s.2
      let v1 := v0 / 10
      let v2 := v1 / 10
      let x1 := v0 - v1 * 10
      let x2 := v1 - v2 * 10
      let d ← wr s.1 (size - 1 - i) (UInt8.ofNat ((x2 <<< 4) ||| x1))
      .ok (d, v2)) =
    .ok (d.take (size - i - n) ++ (bcdBytes n v).reverse ++ d.drop (size - i), v / 100 ^ n) := by
  induction n generalizing d i v with
  | zero => simp [forN, bcdBytes]
  | succ n ih =>
    rw [forN]
    simp only
    rw [wr_ok (by omega)]
    simp only [ok_bind]
    rw [ih _ _ _ (by omega) (by simp; omega)]
    have e1 : ∀ x : Byte, (d.set (size - 1 - i) x).take (size - (i + 1) - n) = d.take (size - i - (n + 1)) := by
      intro x
      rw [List.take_set_of_le (by omega)]
      congr 1; omega
    have e2 : ∀ x : Byte, (d.set (size - 1 - i) x).drop (size - (i + 1)) = x :: d.drop (size - i) := by
      intro x
      have hlt : size - (i + 1) < (d.set (size - 1 - i) x).length := by simp; omega
      rw [List.drop_eq_getElem_cons hlt]
      congr 1
      · have : size - (i + 1) = size - 1 - i := by omega
        simp [this]
      · rw [List.drop_set_of_lt (by omega)]
        congr 1; omega
    have e3 : ((v / 10 - v / 10 / 10 * 10) <<< 4 ||| (v - v / 10 * 10)) = (v / 10 % 10) * 16 + v % 10 := by
      have := pack_digits ⟨v / 10 % 10, by omega⟩ ⟨v % 10, by omega⟩
      simp only at this
      rw [← this]
      congr 2 <;> omega
    rw [e1, e2, e3, bcdBytes]
    have e4 : v / 10 / 10 = v / 100 := by omega
    simp only [e4, List.reverse_cons, List.append_assoc, List.cons_append, List.nil_append]
    congr 2
    rw [Nat.pow_succ, Nat.mul_comm, Nat.div_div_eq_div_mul]

theorem bcdEncode_eq (d : List Byte) (size : Nat) (v : Nat) (h1 : 1 ≤ size) (hs : size ≤ d.length)
    (hv : v ≤ 2147483647) :
    bcdEncode d size (v : Int) = .ok (0, (bcdBytes size v).reverse ++ d.drop size) := by
  unfold bcdEncode
  rw [if_neg (by omega), if_neg (show ¬ ((v : Int) < 0) by omega), int32_ok _ (by omega) (by omega)]
  simp only [ok_bind]
  have := bcdEncode_loop size d size 0 v (by omega) hs
  simp only at this
  rw [Int.toNat_natCast]
  rw [this]
  simp only [ok_bind]
  rw [if_neg (by omega)]
  simp

theorem bcdNat_bytes (n v : Nat) (h : v < 100 ^ n) : bcdNat (bcdBytes n v) = v := by
  induction n generalizing v with
  | zero => simp at h; subst h; rfl
  | succ n ih =>
    have e : (UInt8.ofNat ((v / 10 % 10) * 16 + v % 10)).toNat = (v / 10 % 10) * 16 + v % 10 :=
      UInt8.toNat_ofNat_of_lt' (show _ < 256 by omega)
    rw [Nat.pow_succ] at h
    simp only [bcdBytes, bcdNat, e]
    rw [ih (v / 100) (by omega)]
    omega

theorem isBcd_bytes (n v : Nat) : IsBcd (bcdBytes n v) := by
  induction n generalizing v with
  | zero => intro b hb; simp [bcdBytes] at hb
  | succ n ih =>
    have e : (UInt8.ofNat ((v / 10 % 10) * 16 + v % 10)).toNat = (v / 10 % 10) * 16 + v % 10 :=
      UInt8.toNat_ofNat_of_lt' (show _ < 256 by omega)
    intro b hb
    simp only [bcdBytes, List.mem_cons] at hb
    rcases hb with rfl | hb
    · rw [e]; omega
    · exact ih _ b hb

/-! hexadecimal -/

theorem hex_fold (l : List Byte) (h : l.length ≤ 7) :
    l.reverse.foldlM (fun (v : Int) (b : Byte) => do let s ← int64 (v * 256); .ok (s + (b.toNat : Int))) 0 =
      .ok (leNat l : Int) := by
  induction l with
  | nil => simp [leNat]
  | cons b bs ih =>
    have hlt := leNat_lt bs
    have hlen : bs.length ≤ 6 := by simp at h; omega
    have hp : 256 ^ bs.length ≤ 256 ^ 6 := Nat.pow_le_pow_right (by omega) hlen
    rw [List.reverse_cons, List.foldlM_append, ih (by omega)]
    simp only [ok_bind, List.foldlM_cons, List.foldlM_nil]
    rw [int64_ok _ (by omega) (by omega)]
    simp only [ok_bind, pure_eq_ok, leNat]
    congr 1
    omega

theorem bcdDecodeHex_eq (d : List Byte) (size : Nat) (h : size ≤ 7) (hs : size ≤ d.length) :
    bcdDecodeHex d size = .ok (leNat (d.take size) : Int) := by
  unfold bcdDecodeHex
  rw [forDown_eq d size _ _ hs, hex_fold _ (by simp; omega)]

end Mbus
