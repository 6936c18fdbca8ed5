import Verif.Spec.Handle
import Verif.Model.Address
import Verif.Spec.Address
import Verif.Spec.Link
import Verif.Props.Codec
import Verif.Props.Record
namespace Mbus
open Spec

theorem isXDigit_iff (c : Byte) : isXDigit c = true ↔ IsHex c := by
  revert c; apply forall_byte; decide +kernel

theorem hexPair_eq (b : Byte) : fmtHex2 b = hexPair b := by
  revert b; apply forall_byte; decide +kernel

theorem hexVal_eq (c : Byte) (h : IsHex c) : hexVal c = digitVal c := by
  revert c; apply forall_byte; decide +kernel

theorem digitVal_lt (c : Byte) (h : IsHex c) : digitVal c < 16 := by
  revert c; apply forall_byte; decide +kernel

theorem idNibble_lt (c : Byte) : idNibble c < 16 := by unfold idNibble; split <;> omega

theorem idNibble_ok (c : Byte) (h : IsHex c) (hd : IdDigit c) : idNibble c = digitVal c := by
  revert c; apply forall_byte; decide +kernel

theorem or_nibbles : ∀ a b : Fin 16, ((0 : Byte) ||| UInt8.ofNat (a.val * 16 ^ 1)) ||| UInt8.ofNat (b.val * 16 ^ 0) =
    UInt8.ofNat (16 * a.val + b.val) := by decide

theorem orNib (a b : Byte) : ((0 : Byte) ||| UInt8.ofNat (idNibble a * 16 ^ 1)) ||| UInt8.ofNat (idNibble b * 16 ^ 0) =
    UInt8.ofNat (16 * idNibble a + idNibble b) := or_nibbles ⟨idNibble a, idNibble_lt a⟩ ⟨idNibble b, idNibble_lt b⟩

theorem split8 (d : Buf 252) : ∃ (a0 a1 a2 a3 a4 a5 a6 a7 : Byte) (t : List Byte) (h : (a0 :: a1 :: a2 :: a3 :: a4 :: a5 :: a6 :: a7 :: t).length = 252),
    d = ⟨a0 :: a1 :: a2 :: a3 :: a4 :: a5 :: a6 :: a7 :: t, h⟩ := by
  obtain ⟨l, h⟩ := d
  match l, h with
  | a0 :: a1 :: a2 :: a3 :: a4 :: a5 :: a6 :: a7 :: t, h => exact ⟨a0, a1, a2, a3, a4, a5, a6, a7, t, h, rfl⟩

theorem strtol2 (a b : Byte) (ha : IsHex a) (hb : IsHex b) : strtolHex [a, b] = 16 * digitVal a + digitVal b := by
  simp only [strtolHex, List.foldl, hexVal_eq a ha, hexVal_eq b hb]; omega

theorem strtol4 (a b c d : Byte) (ha : IsHex a) (hb : IsHex b) (hc : IsHex c) (hd : IsHex d) :
    UInt8.ofNat (strtolHex [a, b, c, d] / 256) = UInt8.ofNat (16 * digitVal a + digitVal b) ∧
    UInt8.ofNat (strtolHex [a, b, c, d]) = UInt8.ofNat (16 * digitVal c + digitVal d) := by
  have h1 := digitVal_lt a ha
  have h2 := digitVal_lt b hb
  have h3 := digitVal_lt c hc
  have h4 := digitVal_lt d hd
  simp only [strtolHex, List.foldl, hexVal_eq a ha, hexVal_eq b hb, hexVal_eq c hc, hexVal_eq d hd]
  constructor
  · congr 1; omega
  · apply UInt8.toNat_inj.mp
    simp only [UInt8.toNat_ofNat']
    omega

theorem selectPack_bad (f : Frame) (s : List Byte) (h : isSecondaryAddress s = false) : selectPack f s = .ok (-1, f) := by
  unfold selectPack; rw [if_pos h]

theorem selectPack_eq (f : Frame) (s : List Byte) (hl : s.length = 16) (hx : ∀ c ∈ s, IsHex c) :
    ∃ d : Buf 252, selectPack f s = .ok (0, { f with control := 0x73, address := 0xFD, ci := 0x52, dataSize := 8, data := d }) ∧
      d.bytes.take 8 = selBytes s := by
  have hs : isSecondaryAddress s = true := by
    unfold isSecondaryAddress
    rw [Bool.and_eq_true]
    refine ⟨decide_eq_true hl, List.all_eq_true.mpr fun c hc => (isXDigit_iff c).mpr (hx c hc)⟩
  match s, hl with
  | [c0, c1, c2, c3, c4, c5, c6, c7, c8, c9, c10, c11, c12, c13, c14, c15], _ =>
    simp only [List.mem_cons, List.not_mem_nil, or_false, forall_eq_or_imp, forall_eq] at hx
    obtain ⟨h0, h1, h2, h3, h4, h5, h6, h7, h8, h9, h10, h11, h12, h13, h14, h15⟩ := hx
    unfold selectPack
    rw [if_neg (by rw [hs]; decide)]
    obtain ⟨a0, a1, a2, a3, a4, a5, a6, a7, t, ht, hd⟩ := split8 f.data
    have e4 := strtol4 c8 c9 c10 c11 h8 h9 h10 h11
    have e12 := strtol2 c12 c13 h12 h13
    have e14 := strtol2 c14 c15 h14 h15
    refine ⟨⟨selBytes [c0, c1, c2, c3, c4, c5, c6, c7, c8, c9, c10, c11, c12, c13, c14, c15] ++ t, by
      simp [selBytes] at ht ⊢; omega⟩, ?_, by simp [selBytes]⟩
    simp only [hd, Buf.wr, show (7:Nat) < 252 from by decide, show (6:Nat) < 252 from by decide, show (5:Nat) < 252 from by decide,
      show (4:Nat) < 252 from by decide, show (3:Nat) < 252 from by decide, show (2:Nat) < 252 from by decide,
      show (1:Nat) < 252 from by decide, show (0:Nat) < 252 from by decide, if_true, ok_bind, List.set,
      List.drop, List.take, e12, e14, e4.1, e4.2]
    simp only [forN, selectDigit, rd, Buf.rd, Buf.wr, List.getElem?_cons_zero, List.getElem?_cons_succ, ok_bind, List.set, show (3:Nat) < 252 from by decide, show (2:Nat) < 252 from by decide,
      show (1:Nat) < 252 from by decide, show (0:Nat) < 252 from by decide, if_true, show ¬ (1 : Nat) = 0 from by decide, if_false,
      show (3 - 1 : Nat) = 2 from rfl, show (2 - 1 : Nat) = 1 from rfl, show (1 - 1 : Nat) = 0 from rfl]
    simp only [show ∀ c : Byte, (if c = 70 ∨ c = 102 then 15 else (c.toNat - 48) % 16) = idNibble c from fun _ => rfl, orNib]
    rfl

end Mbus
