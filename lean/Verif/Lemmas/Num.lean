import Verif.Model.Codec
import Verif.Spec.Num
/- Helper lemmas for the integer and BCD codecs. -/
namespace Mbus
open Spec

theorem forDown_eq {σ : Type} (d : List Byte) (n : Nat) (s : σ) (f : Byte → σ → C σ) (h : n ≤ d.length) :
    forDown d n s f = (d.take n).reverse.foldlM (fun s b => f b s) s := by
  induction n generalizing s with
  | zero => simp [forDown]
  | succ n ih =>
    rw [forDown, rd_ok (by omega), List.take_add_one]
    simp only [ok_bind, List.getElem?_eq_getElem (show n < d.length by omega), Option.toList_some,
      List.reverse_append, List.reverse_cons, List.reverse_nil, List.nil_append, List.singleton_append,
      List.foldlM_cons]
    congr 1
    funext s'
    exact ih s' (by omega)

theorem leNat_lt (l : List Byte) : leNat l < 256 ^ l.length := by
  induction l with
  | nil => simp [leNat]
  | cons b bs ih =>
    have := b.toNat_lt
    simp only [leNat, List.length_cons, Nat.pow_succ]
    omega

theorem leNat_append (a b : List Byte) : leNat (a ++ b) = leNat a + 256 ^ a.length * leNat b := by
  induction a with
  | nil => simp [leNat]
  | cons x xs ih =>
    simp only [List.cons_append, leNat, ih, List.length_cons, Nat.pow_succ]
    rw [Nat.mul_add, Nat.mul_comm (256 ^ xs.length) 256, ← Nat.mul_assoc]
    omega

theorem leNat_inj (a b : List Byte) (hl : a.length = b.length) (h : leNat a = leNat b) : a = b := by
  induction a generalizing b with
  | nil => cases b <;> simp_all
  | cons x xs ih =>
    cases b with
    | nil => simp at hl
    | cons y ys =>
      simp only [leNat] at h
      simp at hl
      have h1 := x.toNat_lt
      have h2 := y.toNat_lt
      have e1 : x.toNat = y.toNat := by omega
      have e2 : leNat xs = leNat ys := by omega
      rw [UInt8.toNat_inj.mp e1, ih ys hl e2]

/-- complement of every byte -/
def compl (l : List Byte) : List Byte := l.map (fun b => b ^^^ 0xFF)

theorem xor_ff : ∀ b : Byte, (b ^^^ 0xFF).toNat = 255 - b.toNat := forall_byte (by decide +kernel)

theorem leNat_compl (l : List Byte) : leNat (compl l) + leNat l + 1 = 256 ^ l.length := by
  induction l with
  | nil => simp [leNat, compl]
  | cons b bs ih =>
    have := b.toNat_lt
    simp only [compl, List.map_cons, leNat, xor_ff, List.length_cons, Nat.pow_succ] at *
    omega

/-- accumulate-with-check over the reversed list, positive case -/
theorem acc_pos (chk : Int → C Int) (B : Int) (hchk : ∀ z, -B - 1 ≤ z → z ≤ B → chk z = .ok z) (g : Byte → Byte) (l : List Byte)
    (hB : (leNat (l.map g) : Int) ≤ B) :
    l.reverse.foldlM (fun (v : Int) (b : Byte) => do let s ← chk (v * 256); chk (s + ((g b).toNat : Int))) 0 =
      .ok (leNat (l.map g) : Int) := by
  induction l with
  | nil => simp [leNat]
  | cons b bs ih =>
    simp only [List.map_cons, leNat] at hB
    have h0 : (0 : Int) ≤ leNat (bs.map g) := by omega
    rw [List.reverse_cons, List.foldlM_append, ih (by omega)]
    simp only [ok_bind, List.foldlM_cons, List.foldlM_nil, pure_eq_ok]
    rw [hchk _ (by omega) (by omega)]
    simp only [ok_bind]
    rw [hchk _ (by omega) (by omega)]
    simp only [ok_bind, List.map_cons, leNat]
    congr 1
    omega

theorem land_80 : ∀ b : Byte, (b.toNat &&& 0x80 ≠ 0) ↔ 128 ≤ b.toNat := forall_byte (by decide +kernel)

theorem leNat_top (l : List Byte) (hl : l ≠ []) :
    (128 ≤ (l.getLast hl).toNat) ↔ 256 ^ l.length ≤ 2 * leNat l := by
  obtain ⟨init, top, rfl⟩ : ∃ i t, l = i ++ [t] := ⟨l.dropLast, l.getLast hl, (List.dropLast_concat_getLast hl).symm⟩
  have h1 := leNat_lt init
  rw [List.getLast_concat]
  simp only [leNat_append, leNat, List.length_append, List.length_cons, List.length_nil,
    Nat.zero_add, Nat.pow_succ, Nat.mul_zero, Nat.add_zero]
  generalize 256 ^ init.length = P at *
  generalize leNat init = x at *
  have hP : 0 < P := by omega
  constructor
  · intro h
    have : P * 128 ≤ P * top.toNat := Nat.mul_le_mul_left P h
    omega
  · intro h
    by_cases hh : 128 ≤ top.toNat
    · exact hh
    · have : P * top.toNat ≤ P * 127 := Nat.mul_le_mul_left P (by omega)
      omega

theorem intDecodeWith_eq (chk : Int → C Int) (B : Int) (hchk : ∀ z, -B - 1 ≤ z → z ≤ B → chk z = .ok z)
    (d : List Byte) (size : Nat) (h1 : 1 ≤ size) (hs : size ≤ d.length) (hB : (256 : Int) ^ size ≤ 2 * (B + 1)) :
    intDecodeWith chk d size = .ok (0, leInt (d.take size)) := by
  have hlen : (d.take size).length = size := by simp; omega
  generalize hl : d.take size = l at *
  have hne : l ≠ [] := by intro h; subst h; simp at hlen; omega
  have hgl : rd d (size - 1) = .ok (l.getLast hne) := by
    rw [rd_ok (by omega)]
    congr 1
    subst hl
    rw [List.getLast_eq_getElem]
    simp [hlen]
  have htop := leNat_top l hne
  have hlt := leNat_lt l
  have hcomp := leNat_compl l
  rw [hlen] at htop hlt hcomp
  unfold intDecodeWith
  rw [if_neg (by omega), hgl]
  simp only [ok_bind, forDown_eq d size _ _ hs, hl]
  have hcast : ((256 ^ size : Nat) : Int) = (256 : Int) ^ size := by simp
  by_cases hn : 128 ≤ (l.getLast hne).toNat
  · have hd : decide ((l.getLast hne).toNat &&& 128 ≠ 0) = true := by simpa using (land_80 _).mpr hn
    have h2 := htop.mp hn
    have hacc := acc_pos chk B hchk (fun b => b ^^^ 0xFF) l (by unfold compl at hcomp; omega)
    simp only [hd, if_true]
    rw [hacc]
    simp only [ok_bind]
    have hv : ((leNat (l.map fun b => b ^^^ 0xFF) : Nat) : Int) + leNat l + 1 = (256 : Int) ^ size := by
      rw [← hcast, ← hcomp]; simp [compl]
    have hle : leInt l = (leNat l : Int) - 256 ^ size := by
      unfold leInt; rw [hlen, if_neg (by omega)]
    rw [hchk _ (by omega) (by omega)]
    simp only [ok_bind]
    rw [hchk _ (by omega) (by omega)]
    simp only [ok_bind, hle]
    congr 2
    omega
  · have hd : decide ((l.getLast hne).toNat &&& 128 ≠ 0) = false := by
      have := mt (land_80 (l.getLast hne)).mp hn
      simpa using this
    have h2 := mt htop.mpr hn
    have hacc := acc_pos chk B hchk (fun b => b) l (by simp; omega)
    simp only [hd, Bool.false_eq_true, if_false]
    simp only [List.map_id'] at hacc
    rw [hacc]
    simp only [ok_bind]
    unfold leInt; rw [hlen, if_pos (by omega)]

theorem int32_ok : ∀ z : Int, -2147483647 - 1 ≤ z → z ≤ 2147483647 → int32 z = .ok z := by
  intro z h1 h2
  have : isInt32 z = true := by unfold isInt32; rw [Bool.and_eq_true]; constructor <;> (apply decide_eq_true; omega)
  rw [int32, this]; rfl

theorem int64_ok : ∀ z : Int, -9223372036854775807 - 1 ≤ z → z ≤ 9223372036854775807 → int64 z = .ok z := by
  intro z h1 h2
  have : isInt64 z = true := by unfold isInt64; rw [Bool.and_eq_true]; constructor <;> (apply decide_eq_true; omega)
  rw [int64, this]; rfl

theorem pow256_le {a b : Nat} (h : a ≤ b) : (256 : Int) ^ a ≤ 256 ^ b := by
  have : 256 ^ a ≤ 256 ^ b := Nat.pow_le_pow_right (by omega) h
  have := Int.ofNat_le.mpr this
  rw [Int.natCast_pow, Int.natCast_pow] at this
  exact this

/-- little-endian bytes of an integer -/
def bytesOf : Nat → Int → List Byte
  | 0, _ => []
  | n + 1, v => UInt8.ofNat (v % 256).toNat :: bytesOf n (v / 256)

@[simp] theorem bytesOf_length (n : Nat) (v : Int) : (bytesOf n v).length = n := by
  induction n generalizing v <;> simp_all [bytesOf]

theorem leNat_bytesOf (n : Nat) (v : Int) : (leNat (bytesOf n v) : Int) = v % 256 ^ n := by
  induction n generalizing v with
  | zero => simp [bytesOf, leNat, Int.emod_one]
  | succ n ih =>
    have e : ((UInt8.ofNat (v % 256).toNat).toNat : Int) = v % 256 := by
      have h1 : (v % 256).toNat < 256 := by omega
      rw [UInt8.toNat_ofNat_of_lt' h1]
      omega
    simp only [bytesOf, leNat, Int.natCast_add, Int.natCast_mul, e, ih]
    rw [show (256 : Int) ^ (n + 1) = 256 * 256 ^ n by rw [Int.pow_succ, Int.mul_comm]]
    have hd := Int.emod_add_mul_ediv v 256
    have h2 := Int.emod_add_mul_ediv (v / 256) (256 ^ n)
    have hP : (0 : Int) < 256 ^ n := Int.pow_pos (by omega)
    have r1 := Int.emod_nonneg (v / 256) (show (256 : Int) ^ n ≠ 0 by omega)
    have r2 := Int.emod_lt_of_pos (v / 256) hP
    generalize hq : v / 256 / 256 ^ n = q at *
    generalize hr : v / 256 % 256 ^ n = r at *
    have hv : v = (v % 256 + 256 * r) + 256 * 256 ^ n * q := by
      rw [Int.mul_assoc]; omega
    generalize hm : v % 256 = m at *
    have hm1 : 0 ≤ m ∧ m < 256 := by omega
    rw [hv]
    rw [Int.add_mul_emod_self_left]
    rw [Int.emod_eq_of_lt (by omega) (by omega)]
    rfl

theorem intEncode_loop (d : List Byte) (n i : Nat) (v : Int) (h : i + n ≤ d.length) (h4 : i + n ≤ 4) :
    forN n i d (fun i d => if 32 ≤ i * 8 then .error .shift
      else wr d i (UInt8.ofNat ((v >>> (i * 8)) % 256).toNat)) =
      .ok (d.take i ++ bytesOf n (v / 256 ^ i) ++ d.drop (i + n)) := by
  induction n generalizing i d with
  | zero => simp [forN, bytesOf]
  | succ n ih =>
    rw [forN, if_neg (by omega), wr_ok (by omega)]
    simp only [ok_bind]
    rw [ih _ _ (by simp; omega) (by omega)]
    have e1 : ∀ x : Byte, (d.set i x).take (i + 1) = d.take i ++ [x] := by
      intro x
      rw [List.take_add_one, List.take_set_of_le (by omega), List.getElem?_set_self (by omega)]
      rfl
    have e2 : ∀ x : Byte, (d.set i x).drop (i + 1 + n) = d.drop (i + (n + 1)) := by
      intro x
      rw [List.drop_set_of_lt (by omega)]
      congr 1; omega
    rw [e1, e2, bytesOf]
    have e3 : v >>> (i * 8) = v / 256 ^ i := by
      rw [Int.shiftRight_eq_div_pow]
      congr 1
      rw [Nat.mul_comm, Nat.pow_mul]
      simp
    have e4 : v / 256 ^ (i + 1) = v / 256 ^ i / 256 := by
      rw [Int.pow_succ, Int.ediv_ediv_of_nonneg (Int.pow_nonneg (by omega))]
    rw [e3, e4]
    simp

theorem intEncode_eq (d : List Byte) (n : Nat) (v : Int) (h : n ≤ d.length) (h4 : n ≤ 4) :
    intEncode d n v = .ok (bytesOf n v ++ d.drop n) := by
  unfold intEncode
  rw [intEncode_loop d n 0 v (by omega) (by omega)]
  simp

end Mbus
