import Verif.Model.Codec
import Verif.Spec.Num
/- Helper lemmas for string / binary / XML / hex text functions. -/
namespace Mbus
open Spec

theorem set_take_succ (d : List Byte) (i : Nat) (x : Byte) (h : i < d.length) :
    (d.set i x).take (i + 1) = d.take i ++ [x] := by
  rw [List.take_add_one, List.take_set_of_le (by omega), List.getElem?_set_self (by omega)]
  rfl

theorem set_drop (d : List Byte) (i k : Nat) (x : Byte) (h : i < k) : (d.set i x).drop k = d.drop k :=
  List.drop_set_of_lt (by omega)

theorem take_succ_reverse (src : List Byte) (n : Nat) (h : n < src.length) :
    (src.take (n + 1)).reverse = src[n] :: (src.take n).reverse := by
  rw [List.take_add_one, List.getElem?_eq_getElem h]
  rw [Option.toList_some, List.reverse_append]
  rfl

theorem snprintfAt_ok (dst : List Byte) (pos n : Nat) (s : List Byte) (hn : s.length < n)
    (h : pos + s.length + 1 ≤ dst.length) :
    snprintfAt dst pos n s = .ok (dst.take pos ++ (s ++ [0]) ++ dst.drop (pos + s.length + 1)) := by
  unfold snprintfAt
  rw [if_neg (by omega), List.take_of_length_le (by omega)]
  simp only [List.length_append, List.length_cons, List.length_nil]
  rw [if_pos (by omega)]
  simp [Nat.add_assoc]

/-! ### string decoding -/

theorem strLoop_eq (src dst : List Byte) (len i : Nat) (hs : len ≤ src.length) (hd : i + len ≤ dst.length) :
    strLoop src len i dst = .ok (dst.take i ++ (src.take len).reverse ++ dst.drop (i + len)) := by
  induction len generalizing i dst with
  | zero => simp [strLoop]
  | succ n ih =>
    rw [strLoop, rd_ok (by omega)]
    simp only [ok_bind]
    rw [wr_ok (by omega)]
    simp only [ok_bind]
    rw [ih _ _ (by omega) (by simp; omega), set_take_succ _ _ _ (by omega), set_drop _ _ _ _ (by omega),
      take_succ_reverse _ _ (by omega)]
    simp [Nat.add_assoc, Nat.add_comm 1]

theorem strDecode_eq (dst src : List Byte) (len : Nat) (hs : len ≤ src.length) (hd : len < dst.length) :
    strDecode dst src len = .ok ((src.take len).reverse ++ 0 :: dst.drop (len + 1)) := by
  unfold strDecode
  rw [wr_ok hd]
  simp only [ok_bind]
  rw [strLoop_eq _ _ _ _ hs (by simp; omega)]
  have : (dst.set len 0).drop len = 0 :: dst.drop (len + 1) := by
    rw [List.drop_eq_getElem_cons (by simpa using hd)]
    simp [set_drop]
  simp [this]

/-! ### binary decoding -/

/-- "XX " for each byte -/
def spaced (l : List Byte) : List Byte := l.flatMap fun b => fmtHex2 b ++ [32]

@[simp] theorem fmtHex2_length (b : Byte) : (fmtHex2 b).length = 2 := rfl

@[simp] theorem spaced_length (l : List Byte) : (spaced l).length = 3 * l.length := by
  induction l with
  | nil => rfl
  | cons b bs ih => simp [spaced, List.flatMap_cons] at *; omega

theorem spaced_append (a b : List Byte) : spaced (a ++ b) = spaced a ++ spaced b := by
  simp [spaced]

theorem spaced_eq (l : List Byte) (h : l ≠ []) : spaced l = hexDump l ++ [32] := by
  induction l with
  | nil => exact absurd rfl h
  | cons b bs ih =>
    cases bs with
    | nil => simp [spaced, hexDump]
    | cons c cs =>
      have := ih (by simp)
      simp only [spaced, List.flatMap_cons, hexDump] at *
      rw [this]
      simp

/-- Number of source bytes that fit. -/
def binCount (len maxLen : Nat) : Nat := min len ((maxLen - 1) / 3)

/-- The loop prints the last `n` source bytes in reverse order until the space is used up; `done` were printed already. -/
theorem binLoop_eq (src : List Byte) (maxLen : Nat) (n : Nat) (pfx dst : List Byte) (hn : n ≤ src.length)
    (hm : maxLen ≤ dst.length) (hp : 3 * pfx.length + 1 ≤ maxLen)
    (hd : dst.take (3 * pfx.length) = spaced pfx) :
    ∃ k dst', k = min n ((maxLen - 1 - 3 * pfx.length) / 3) ∧
      binLoop src maxLen n (3 * pfx.length) dst = .ok (dst', 3 * (pfx.length + k)) ∧
      dst'.length = dst.length ∧ dst'.drop maxLen = dst.drop maxLen ∧
      dst'.take (3 * (pfx.length + k)) = spaced (pfx ++ ((src.take n).reverse.take k)) := by
  induction n generalizing pfx dst with
  | zero => exact ⟨0, dst, by simp, by simp [binLoop], rfl, rfl, by simpa using hd⟩
  | succ n ih =>
    by_cases hc : 3 * pfx.length + 3 < maxLen
    · have hr : rd src n = .ok src[n] := rd_ok (by omega)
      have hsp := snprintfAt_ok dst (3 * pfx.length) (maxLen - 3 * pfx.length) (fmtHex2 src[n] ++ [32])
        (by simp; omega) (by simp; omega)
      obtain ⟨k, dst', hk, h1, h2, h3, h4⟩ := ih (pfx ++ [src[n]]) (dst.take (3 * pfx.length) ++
          (fmtHex2 src[n] ++ [32] ++ [0]) ++ dst.drop (3 * pfx.length + (fmtHex2 src[n] ++ [32]).length + 1))
        (by omega) (by simp; omega) (by simp; omega) (by
          rw [spaced_append, ← hd]
          have hl : (dst.take (3 * pfx.length)).length = 3 * pfx.length := by simp; omega
          rw [List.append_assoc, List.take_append, hl, List.take_of_length_le (by rw [hl]; simp; omega)]
          congr 1
          rw [show 3 * (pfx ++ [src[n]]).length - 3 * pfx.length = 3 by simp; omega]
          rfl)
      refine ⟨k + 1, dst', ?_, ?_, ?_, ?_, ?_⟩
      · simp at hk; omega
      · rw [binLoop, if_pos hc, hr]
        simp only [ok_bind]
        rw [hsp]
        simp only [ok_bind]
        have hl2 : 3 * (pfx ++ [src[n]]).length = 3 * pfx.length + (fmtHex2 src[n] ++ [32]).length := by simp; omega
        rw [hl2] at h1
        rw [h1]
        congr 2
        simp; omega
      · rw [h2]; simp; omega
      · rw [h3]
        rw [List.drop_append, List.drop_of_length_le (by simp; omega)]
        simp
        congr 1; omega
      · rw [show 3 * (pfx.length + (k + 1)) = 3 * ((pfx ++ [src[n]]).length + k) by simp; omega, h4]
        rw [take_succ_reverse _ _ (by omega)]
        simp
    · refine ⟨0, dst, by omega, ?_, rfl, rfl, by simpa using hd⟩
      rw [binLoop, if_neg hc]
      simp

/-! ### XML -/

theorem isCntrl_iff (c : Byte) : isCntrl c = true ↔ c.toNat < 32 ∨ c.toNat = 127 := by
  unfold isCntrl
  rw [Bool.or_eq_true, decide_eq_true_iff, decide_eq_true_iff]
  omega

theorem escape_cons (c : Byte) (s : List Byte) : escape (c :: s) = escape1 c ++ escape s := by
  simp [escape]

theorem escape_append (a b : List Byte) : escape (a ++ b) = escape a ++ escape b := by
  simp [escape]

theorem escape1_length (c : Byte) : 1 ≤ (escape1 c).length ∧ (escape1 c).length ≤ 6 := by
  unfold escape1
  split
  · simp
  split
  · simp
  split
  · simp
  split
  · simp
  split <;> simp

/-- One step of the loop appends the escape of the character. -/
theorem xml_step (maxLen : Nat) (c : Byte) (rest : List Byte) (len : Nat) (dst : List Byte) (hc : c ≠ 0)
    (hl : len + 6 < maxLen) (hm : maxLen ≤ dst.length) :
    ∃ dst', xmlLoop maxLen (c :: rest) len dst = xmlLoop maxLen rest (len + (escape1 c).length) dst' ∧
      dst'.length = dst.length ∧ dst'.drop maxLen = dst.drop maxLen ∧
      dst'.take (len + (escape1 c).length) = dst.take len ++ escape1 c := by
  have hput : ∀ t : List Byte, 1 ≤ t.length → t.length ≤ 6 →
      (dst.take len ++ (t ++ [0]) ++ dst.drop (len + t.length + 1)).length = dst.length ∧
      (dst.take len ++ (t ++ [0]) ++ dst.drop (len + t.length + 1)).drop maxLen = dst.drop maxLen ∧
      (dst.take len ++ (t ++ [0]) ++ dst.drop (len + t.length + 1)).take (len + t.length) = dst.take len ++ t := by
    intro t h1 h2
    refine ⟨by simp; omega, ?_, ?_⟩
    · rw [List.drop_append, List.drop_of_length_le (by simp; omega)]
      simp
      congr 1; omega
    · have hmin : min len dst.length = len := by omega
      simp [List.take_append, hmin, List.take_take]
  have hset : ∀ x : Byte, (dst.set len x).length = dst.length ∧ (dst.set len x).drop maxLen = dst.drop maxLen ∧
      (dst.set len x).take (len + 1) = dst.take len ++ [x] := by
    intro x
    exact ⟨by simp, set_drop _ _ _ _ (by omega), set_take_succ _ _ _ (by omega)⟩
  by_cases k : isCntrl c = true
  · have k' := (isCntrl_iff c).mp k
    have e : escape1 c = [32] := by
      unfold escape1
      have n1 : c ≠ 38 := by rintro rfl; revert k'; decide
      have n2 : c ≠ 60 := by rintro rfl; revert k'; decide
      have n3 : c ≠ 62 := by rintro rfl; revert k'; decide
      have n4 : c ≠ 34 := by rintro rfl; revert k'; decide
      rw [if_neg n1, if_neg n2, if_neg n3, if_neg n4, if_pos k']
    rw [e]
    refine ⟨dst.set len 32, ?_, hset 32⟩
    rw [xmlLoop, if_pos hl]
    rw [if_neg hc, if_pos k, wr_ok (by omega)]
    rfl
  have k' := mt (isCntrl_iff c).mpr k
  by_cases c1 : c = 38
  · subst c1
    refine ⟨_, ?_, hput (escape1 38) (by decide) (by decide)⟩
    rw [xmlLoop, if_pos hl]
    rw [if_neg hc, if_neg k, if_pos rfl]
    rw [snprintfAt_ok _ _ _ _ (by simp; omega) (by simp; omega)]
    rfl
  by_cases c2 : c = 60
  · subst c2
    refine ⟨_, ?_, hput (escape1 60) (by decide) (by decide)⟩
    rw [xmlLoop, if_pos hl]
    rw [if_neg hc, if_neg k, if_neg (by decide), if_pos rfl]
    rw [snprintfAt_ok _ _ _ _ (by simp; omega) (by simp; omega)]
    rfl
  by_cases c3 : c = 62
  · subst c3
    refine ⟨_, ?_, hput (escape1 62) (by decide) (by decide)⟩
    rw [xmlLoop, if_pos hl]
    rw [if_neg hc, if_neg k, if_neg (by decide), if_neg (by decide), if_pos rfl]
    rw [snprintfAt_ok _ _ _ _ (by simp; omega) (by simp; omega)]
    rfl
  by_cases c4 : c = 34
  · subst c4
    refine ⟨_, ?_, hput (escape1 34) (by decide) (by decide)⟩
    rw [xmlLoop, if_pos hl]
    rw [if_neg hc, if_neg k, if_neg (by decide), if_neg (by decide), if_neg (by decide), if_pos rfl]
    rw [snprintfAt_ok _ _ _ _ (by simp; omega) (by simp; omega)]
    rfl
  · have e : escape1 c = [c] := by
      unfold escape1
      rw [if_neg c1, if_neg c2, if_neg c3, if_neg c4, if_neg k']
    rw [e]
    refine ⟨dst.set len c, ?_, hset c⟩
    rw [xmlLoop, if_pos hl]
    rw [if_neg hc, if_neg k, if_neg c1, if_neg c2, if_neg c3, if_neg c4, wr_ok (by omega)]
    rfl

theorem xmlLoop_eq (maxLen : Nat) (s junk : List Byte) (len : Nat) (dst : List Byte) (hs : (0 : Byte) ∉ s)
    (hl : len < maxLen) (hm : maxLen ≤ dst.length) :
    ∃ k dst', k ≤ s.length ∧ xmlLoop maxLen (s ++ 0 :: junk) len dst = .ok (dst', len + (escape (s.take k)).length) ∧
      dst'.length = dst.length ∧ dst'.drop maxLen = dst.drop maxLen ∧
      dst'.take (len + (escape (s.take k)).length) = dst.take len ++ escape (s.take k) ∧
      len + (escape (s.take k)).length < maxLen ∧
      (k < s.length → maxLen ≤ len + (escape (s.take k)).length + 6) ∧
      (∀ j, j < k → len + (escape (s.take j)).length + 6 < maxLen) := by
  induction s generalizing len dst with
  | nil =>
    refine ⟨0, dst, by simp, ?_, rfl, rfl, by simp [escape], by simpa [escape] using hl, by simp, by simp⟩
    rw [List.nil_append, xmlLoop]
    by_cases h : len + 6 < maxLen <;> simp [h, escape]
  | cons c s ih =>
    by_cases h : len + 6 < maxLen
    · have hc : c ≠ 0 := by intro hh; apply hs; simp [hh]
      obtain ⟨d1, e1, e2, e3, e4⟩ := xml_step maxLen c (s ++ 0 :: junk) len dst hc h hm
      have h6 := escape1_length c
      obtain ⟨k, d2, f0, f1, f2, f3, f4, f5, f6, f7⟩ := ih (len + (escape1 c).length) d1
        (by intro hh; apply hs; simp [hh]) (by omega) (by omega)
      refine ⟨k + 1, d2, by simp; omega, ?_, by omega, by rw [f3, e3], ?_, ?_, ?_, ?_⟩
      · rw [List.cons_append, e1, f1, List.take_succ_cons, escape_cons]
        simp [Nat.add_assoc]
      · rw [List.take_succ_cons, escape_cons]
        rw [List.length_append, ← Nat.add_assoc, f4, e4]
        simp
      · rw [List.take_succ_cons, escape_cons, List.length_append]; omega
      · rw [List.take_succ_cons, escape_cons, List.length_append]
        intro hk
        have := f6 (by simp at hk; omega)
        omega
      · intro j hj
        cases j with
        | zero => simpa [escape] using h
        | succ j =>
          have := f7 j (by omega)
          rw [List.take_succ_cons, escape_cons, List.length_append]
          omega
    · refine ⟨0, dst, by simp, ?_, rfl, rfl, by simp [escape], by simpa [escape] using hl, ?_, by simp⟩
      · rw [List.cons_append, xmlLoop]; simp [h, escape]
      · intro _; simp [escape]; omega

/-! ### hex2bin -/

theorem hexLoop_bounds (dstLen : Nat) (src : List Byte) (r : Nat) (dst : List Byte) (hr : r ≤ dstLen)
    (hd : dstLen ≤ dst.length) (hz : (dst.take dstLen).drop r = List.replicate (dstLen - r) 0) :
    ∃ dst' n, hexLoop dstLen src r dst = .ok (dst', n) ∧ r ≤ n ∧ n ≤ dstLen ∧ dst'.length = dst.length ∧
      dst'.drop dstLen = dst.drop dstLen ∧ dst'.take r = dst.take r ∧
      (dst'.take dstLen).drop n = List.replicate (dstLen - n) 0 := by
  fun_induction hexLoop dstLen src r dst with
  | case1 => rename_i ih; exact ih hr hd hz
  | case2 => exact ⟨_, _, rfl, Nat.le_refl _, hr, rfl, rfl, rfl, hz⟩
  | case3 => exact ⟨_, _, rfl, Nat.le_refl _, hr, rfl, rfl, rfl, hz⟩
  | case4 c0 c1 rest r dst _ v hv hlt ih =>
    rw [wr_ok (by omega)]
    simp only [ok_bind]
    have hz' : ((dst.set r (UInt8.ofNat v)).take dstLen).drop (r + 1) = List.replicate (dstLen - (r + 1)) 0 := by
      rw [List.take_set, List.drop_set_of_lt (by omega)]
      have : (dst.take dstLen).drop (r + 1) = ((dst.take dstLen).drop r).drop 1 := by simp
      rw [this, hz]
      simp
      omega
    obtain ⟨d', n, g1, g2, g3, g4, g5, g6, g7⟩ := ih (dst.set r (UInt8.ofNat v)) (by omega) (by simp; omega) hz'
    refine ⟨d', n, g1, by omega, g3, by simpa using g4, ?_, ?_, g7⟩
    · rw [g5, set_drop _ _ _ _ (by omega)]
    · have := congrArg (List.take r) g6
      simp [List.take_take] at this
      rw [this, List.take_set_of_le (by omega)]
  | case5 => exact ⟨_, _, rfl, Nat.le_refl _, hr, rfl, rfl, rfl, hz⟩

theorem xdigit_not_space : ∀ c : Byte, isXDigit c = true → isSpace c = false := forall_byte (by decide +kernel)

theorem hexLoop_text (dstLen : Nat) (src bs rest : List Byte) (h : HexText src bs) (r : Nat) (dst : List Byte)
    (hr : r + bs.length ≤ dstLen) (hd : dstLen ≤ dst.length) :
    hexLoop dstLen (src ++ rest) r dst =
      hexLoop dstLen rest (r + bs.length) (dst.take r ++ bs ++ dst.drop (r + bs.length)) := by
  induction h generalizing r dst with
  | nil => simp
  | @space c src bs hc _ ih =>
    cases hx : src ++ rest with
    | nil =>
      have hn := ih r dst hr hd
      rw [hx] at hn
      rw [List.cons_append, hx, ← hn]
      simp [hexLoop]
    | cons y ys =>
      rw [List.cons_append, hx, hexLoop, if_pos hc, ← hx]
      exact ih r dst hr hd
  | @byte c0 c1 src bs h0 h1 _ ih =>
    have hsp : isSpace c0 = false := xdigit_not_space c0 h0
    simp only [List.length_cons] at hr
    rw [List.cons_append, List.cons_append, hexLoop, if_neg (by simp [hsp])]
    simp only [strtoul2, h0, h1, if_true]
    rw [if_neg (by omega), wr_ok (by omega)]
    simp only [ok_bind]
    rw [ih _ _ (by omega) (by simp; omega), set_take_succ _ _ _ (by omega), set_drop _ _ _ _ (by omega)]
    simp [Nat.add_assoc, Nat.add_comm 1]

end Mbus
