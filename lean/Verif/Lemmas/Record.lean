import Verif.Spec.Delivered
import Verif.Model.Record
import Verif.Spec.Records
import Verif.Lemmas.Text
/- The record parser as a function of the payload bytes. -/
namespace Mbus
open Spec

/-! ### zero-padded arrays -/

theorem pad_bytes {n : Nat} {l : List Byte} (h : l.length ≤ n) : (pad n l).bytes = l ++ List.replicate (n - l.length) 0 := by
  unfold pad
  simp only
  rw [List.take_append, List.take_of_length_le h, List.take_replicate]
  congr 2
  omega

theorem pad_zero (n : Nat) : pad n [] = Buf.zero n := by
  apply Buf.ext; rw [pad_bytes (by simp)]; simp [Buf.zero]

theorem pad_wr {n : Nat} (l : List Byte) (x : Byte) (h : l.length < n) : (pad n l).wr l.length x = .ok (pad n (l ++ [x])) := by
  unfold Buf.wr
  rw [if_pos h]
  congr 1
  apply Buf.ext
  simp only
  rw [pad_bytes (by omega), pad_bytes (by simp; omega)]
  obtain ⟨k, hk⟩ : ∃ k, n - l.length = k + 1 := ⟨n - l.length - 1, by omega⟩
  rw [hk, List.replicate_succ, List.set_append_right _ _ (by omega)]
  simp [show n - (l.length + 1) = k by omega]

theorem pad_take {n : Nat} {l : List Byte} (h : l.length ≤ n) : (pad n l).bytes.take l.length = l := by
  rw [pad_bytes h, List.take_left' rfl]

theorem Buf.rd_lt {n : Nat} (b : Buf n) {i : Nat} (h : i < n) : b.rd i = .ok (b.bytes[i]'(by simp [h])) := by
  unfold Buf.rd; exact Mbus.rd_ok (by simp [h])

theorem Buf.rd_oob {n : Nat} (b : Buf n) {i : Nat} (h : n ≤ i) : b.rd i = .error (.oobRead n i) := by
  unfold Buf.rd Mbus.rd
  rw [List.getElem?_eq_none (by simp [h])]
  simp

/-! ### the record the library builds for a wire record -/

/-! ### pure parser -/

def pChain : (room : Nat) → Byte → List Byte → Option (List Byte × List Byte)
  | 0, b, l => if 128 ≤ b.toNat then none else some ([], l)
  | room + 1, b, l =>
    if 128 ≤ b.toNat then
      match l with
      | x :: l' => (pChain room x l').map fun (xs, r) => (x :: xs, r)
      | [] => none
    else some ([], l)

theorem pChain_stop (room : Nat) (b : Byte) (l : List Byte) (h : ¬ 128 ≤ b.toNat) : pChain room b l = some ([], l) := by
  cases room <;> simp only [pChain, if_neg h]

theorem pChain_zero (b : Byte) (l : List Byte) (h : 128 ≤ b.toNat) : pChain 0 b l = none := by
  rw [pChain, if_pos h]

theorem pChain_nil (room : Nat) (b : Byte) (h : 128 ≤ b.toNat) : pChain room b [] = none := by
  cases room <;> simp only [pChain, if_pos h]

theorem pChain_cons (room : Nat) (b x : Byte) (l : List Byte) (h : 128 ≤ b.toNat) :
    pChain (room + 1) b (x :: l) = (pChain room x l).map fun (xs, r) => (x :: xs, r) := by
  rw [pChain, if_pos h]

def pText (vif : Byte) (l : List Byte) : C (Option (List Byte × List Byte)) :=
  if PlainText vif then
    match l with
    | [] => .ok none
    | n :: l =>
      if n.toNat ≤ 128 ∧ n.toNat ≤ l.length then
        if n.toNat = 128 then .error (.oobWrite 128 128) else .ok (some (l.take n.toNat, l.drop n.toNat))
      else .ok none
  else .ok (some ([], l))

def pLen (dif : Byte) (l : List Byte) : Option Nat :=
  if dif.toNat % 16 = 0xD then l.head?.map fun b => lvarBytes b + 1 else some (width dif)

def pRec : List Byte → C (Option (Rec × List Byte))
  | [] => .ok none
  | dif :: l =>
    if dif = 0x0F ∨ dif = 0x1F then
      if l.length ≤ 234 then .ok (some (.special dif l, [])) else .error (.oobWrite 234 234)
    else
      match pChain 10 dif l with
      | none => .ok none
      | some (_, []) => .ok none
      | some (difes, vif :: l) => do
        match ← pText vif l with
        | none => .ok none
        | some (text, l) =>
          match pChain 10 vif l with
          | none => .ok none
          | some (vifes, l) =>
            match pLen dif l with
            | none => .ok none
            | some len =>
              if len ≤ l.length then .ok (some (.value dif difes vif text vifes (l.take len), l.drop len)) else .ok none

/-! ### byte facts -/

theorem ext_iff : ∀ b : Byte, (b &&& 0x80 ≠ 0) ↔ 128 ≤ b.toNat := forall_byte (by decide +kernel)
theorem plain_iff : ∀ b : Byte, (b &&& 0x7F = 0x7C) ↔ PlainText b := forall_byte (by decide +kernel)
theorem varlen_iff : ∀ b : Byte, (b &&& 0x0F = 0x0D) ↔ b.toNat % 16 = 0xD := forall_byte (by decide +kernel)
theorem difLength_eq : ∀ b : Byte, difLength b = width b := forall_byte (by decide +kernel)
theorem lvarLength_eq : ∀ b : Byte, lvarLength b 0 = lvarBytes b + 1 := forall_byte (by decide +kernel)
theorem width_varlen : ∀ b : Byte, b.toNat % 16 = 0xD → width b = 0 := forall_byte (by decide +kernel)
theorem width_le : ∀ b : Byte, width b ≤ 8 := forall_byte (by decide +kernel)
theorem lvarBytes_le : ∀ b : Byte, lvarBytes b ≤ 191 := forall_byte (by decide +kernel)

/-! ### payload as a list -/

/-- payload bytes from index `i` on -/
def tail (d : Buf 252) (size i : Nat) : List Byte := (d.bytes.take size).drop i

theorem tail_cons (d : Buf 252) {size i : Nat} (hs : size ≤ 252) (hi : i < size) :
    tail d size i = d.bytes[i]'(by simp; omega) :: tail d size (i + 1) := by
  unfold tail
  rw [List.drop_eq_getElem_cons (by simp; omega)]
  simp

theorem tail_nil (d : Buf 252) {size i : Nat} (h : size ≤ i) : tail d size i = [] := by
  unfold tail; apply List.drop_eq_nil_of_le; simp; omega

@[simp] theorem tail_length (d : Buf 252) {size i : Nat} (hs : size ≤ 252) : (tail d size i).length = size - i := by
  unfold tail; simp; omega

theorem tail_drop (d : Buf 252) (size i n : Nat) : (tail d size i).drop n = tail d size (i + n) := by
  unfold tail; simp

theorem tail_take (d : Buf 252) (size i n : Nat) (h : i + n ≤ size) : (tail d size i).take n = (d.bytes.drop i).take n := by
  unfold tail
  rw [List.drop_take, List.take_take, Nat.min_eq_left (by omega)]

/-! ### chains -/

/-- Result of an extension loop. -/
theorem difeLoop_eq (d : Buf 252) (size : Nat) (hs : size ≤ 252) (room i : Nat) (acc : List Byte) (hr : acc.length + room = 10)
    (hi : i < size) :
    match pChain room (d.bytes[i]'(by simp; omega)) (tail d size (i + 1)) with
    | some (xs, rest) => difeLoop d size room i acc.length (pad 10 acc) =
        .ok (some (size - rest.length - 1, acc.length + xs.length, pad 10 (acc ++ xs))) ∧ acc.length + xs.length ≤ 10 ∧
        i + xs.length + 1 + rest.length = size ∧ rest = tail d size (i + xs.length + 1)
    | none => difeLoop d size room i acc.length (pad 10 acc) = .ok none ∨
        (∃ n x, difeLoop d size room i acc.length (pad 10 acc) = .ok (some (size, n, x))) ∨
        (size = 252 ∧ difeLoop d size room i acc.length (pad 10 acc) = .error (.oobRead 252 252)) := by
  have stop : ∀ room i (acc : List Byte), acc.length + room = 10 → ∀ hi : i < size, ¬ 128 ≤ (d.bytes[i]'(by simp; omega)).toNat →
      difeLoop d size room i acc.length (pad 10 acc) = .ok (some (i, acc.length, pad 10 acc)) := by
    intro room i acc _ hi hb
    cases room <;>
    · rw [difeLoop, if_pos hi, Buf.rd_lt d (by omega)]
      simp only [ok_bind, ext_iff, hb, if_false]
  by_cases hb : 128 ≤ (d.bytes[i]'(by simp; omega)).toNat
  · induction room generalizing i acc with
    | zero =>
      rw [pChain_zero _ _ hb, difeLoop, if_pos hi, Buf.rd_lt d (by omega)]
      simp only [ok_bind, ext_iff, hb, if_true]
      exact .inl trivial
    | succ room ih =>
      rw [difeLoop, if_pos hi, Buf.rd_lt d (by omega)]
      simp only [ok_bind, ext_iff, hb, if_true]
      by_cases hi1 : i + 1 < size
      · rw [tail_cons d hs hi1, pChain_cons _ _ _ _ hb, Buf.rd_lt d (by omega)]
        simp only [ok_bind]
        rw [pad_wr _ _ (by omega)]
        simp only [ok_bind]
        have key : match pChain room (d.bytes[i + 1]'(by simp; omega)) (tail d size (i + 1 + 1)) with
            | some (xs, rest) => difeLoop d size room (i + 1) (acc.length + 1) (pad 10 (acc ++ [d.bytes[i + 1]'(by simp; omega)])) =
                .ok (some (size - rest.length - 1, acc.length + 1 + xs.length, pad 10 (acc ++ [d.bytes[i + 1]'(by simp; omega)] ++ xs))) ∧
                acc.length + 1 + xs.length ≤ 10 ∧
                i + 1 + xs.length + 1 + rest.length = size ∧ rest = tail d size (i + 1 + xs.length + 1)
            | none => difeLoop d size room (i + 1) (acc.length + 1) (pad 10 (acc ++ [d.bytes[i + 1]'(by simp; omega)])) = .ok none ∨
                (∃ n x, difeLoop d size room (i + 1) (acc.length + 1) (pad 10 (acc ++ [d.bytes[i + 1]'(by simp; omega)])) = .ok (some (size, n, x))) ∨
                (size = 252 ∧ difeLoop d size room (i + 1) (acc.length + 1) (pad 10 (acc ++ [d.bytes[i + 1]'(by simp; omega)])) = .error (.oobRead 252 252)) := by
          by_cases hb1 : 128 ≤ (d.bytes[i + 1]'(by simp; omega)).toNat
          · have := ih (i + 1) (acc ++ [d.bytes[i + 1]'(by simp; omega)]) (by simp; omega) hi1 stop hb1
            rw [List.length_append, List.length_singleton] at this
            exact this
          · rw [pChain_stop _ _ _ hb1]
            have := stop room (i + 1) (acc ++ [d.bytes[i + 1]'(by simp; omega)]) (by simp; omega) hi1 hb1
            rw [List.length_append, List.length_singleton] at this
            rw [this]
            simp only [tail_length d hs]
            refine ⟨?_, by simp; omega, by simp; omega, by simp⟩
            simp; omega
        revert key
        cases hp : pChain room (d.bytes[i + 1]'(by simp; omega)) (tail d size (i + 1 + 1)) with
        | none => simp
        | some p =>
          obtain ⟨xs, rest⟩ := p
          simp only [Option.map_some, List.length_cons]
          rintro ⟨h1, h2, h3, h4⟩
          refine ⟨?_, by omega, by omega, ?_⟩
          · rw [h1]; simp; omega
          · rw [h4]; congr 1; omega
      · rw [tail_nil d (show size ≤ i + 1 by omega), pChain_nil _ _ hb]
        simp only
        have he : i + 1 = size := by omega
        by_cases h252 : size = 252
        · right; right
          refine ⟨h252, ?_⟩
          rw [Buf.rd_oob d (by omega)]
          simp only [error_bind]
          congr 2; omega
        · right; left
          rw [Buf.rd_lt d (by omega)]
          simp only [ok_bind]
          rw [pad_wr _ _ (by omega)]
          simp only [ok_bind]
          have hend : ∀ n a, difeLoop d size room (i + 1) n a = .ok (some (size, n, a)) := by
            intro n a
            cases room <;> rw [difeLoop, if_neg (by omega), he]
          exact ⟨_, _, hend _ _⟩
  · rw [pChain_stop _ _ _ hb, stop room i acc hr hi hb]
    simp only [tail_length d hs]
    refine ⟨?_, by simp; omega, by simp; omega, by simp⟩
    simp; omega

theorem vifeLoop_eq_difeLoop (d : Buf 252) (size room i n : Nat) (a : Buf 10) :
    vifeLoop d size room i n a = difeLoop d size room i n a := by
  induction room generalizing i n a with
  | zero => rw [vifeLoop, difeLoop]
  | succ room ih => rw [vifeLoop, difeLoop]; simp only [ih]

theorem vifePart_eq (d : Buf 252) (size : Nat) (hs : size ≤ 252) (i : Nat) (hi : i ≤ size) (vif : Byte) :
    match pChain 10 vif (tail d size i) with
    | some (xs, rest) => vifePart d size i vif (Buf.zero 10) = .ok (some (size - rest.length, xs.length, pad 10 xs)) ∧
        xs.length ≤ 10 ∧ i + xs.length + rest.length = size ∧ rest = tail d size (i + xs.length)
    | none => vifePart d size i vif (Buf.zero 10) = .ok none ∨
        (∃ k n x, size < k ∧ vifePart d size i vif (Buf.zero 10) = .ok (some (k, n, x))) ∨
        (size = 252 ∧ vifePart d size i vif (Buf.zero 10) = .error (.oobRead 252 252)) := by
  unfold vifePart
  simp only [ext_iff]
  by_cases hv : 128 ≤ vif.toNat
  · simp only [hv, if_true]
    by_cases h : i < size
    · rw [tail_cons d hs h, pChain_cons _ _ _ _ hv, Buf.rd_lt d (by omega), ← pad_zero]
      simp only [ok_bind]
      rw [show (0 : Nat) = ([] : List Byte).length from rfl, pad_wr _ _ (by simp)]
      simp only [ok_bind, List.nil_append, vifeLoop_eq_difeLoop]
      have := difeLoop_eq d size hs 9 i [d.bytes[i]'(by simp; omega)] (by simp) h
      rw [List.length_singleton] at this
      revert this
      cases hp : pChain 9 (d.bytes[i]'(by simp; omega)) (tail d size (i + 1)) with
      | none =>
        simp only [Option.map_none]
        rintro (h1 | ⟨n, x, h1⟩ | ⟨h0, h1⟩)
        · rw [h1]; left; rfl
        · rw [h1]; right; left; exact ⟨size + 1, n, x, by omega, rfl⟩
        · rw [h1]; right; right; exact ⟨h0, rfl⟩
      | some p =>
        obtain ⟨xs, rest⟩ := p
        simp only [Option.map_some, List.length_cons]
        rintro ⟨h1, h2, h3, h4⟩
        rw [h1]
        simp only [ok_bind]
        refine ⟨?_, by omega, by omega, ?_⟩
        · congr 3
          · omega
          · rw [Nat.add_comm]; rfl
        · rw [h4]; rfl
    · rw [tail_nil d (by omega), pChain_nil _ _ hv]
      simp only
      by_cases h252 : size = 252
      · right; right
        rw [Buf.rd_oob d (by omega)]
        refine ⟨h252, ?_⟩
        simp only [error_bind]
        congr 2; omega
      · right; left
        rw [Buf.rd_lt d (by omega), ← pad_zero]
        simp only [ok_bind]
        rw [show (0 : Nat) = ([] : List Byte).length from rfl, pad_wr _ _ (by simp)]
        simp only [ok_bind]
        rw [vifeLoop, if_neg (by omega)]
        exact ⟨i + 1, _, _, by omega, rfl⟩
  · simp only [hv, if_false]
    rw [pChain_stop _ _ _ hv]
    simp only [tail_length d hs, List.length_nil]
    refine ⟨?_, by omega, by omega, rfl⟩
    rw [pad_zero]; congr 3; omega

/-- past the end of the payload -/
theorem vifePart_past (d : Buf 252) (size : Nat) (i : Nat) (hi : size < i) (hs : size ≤ 251) (hi' : i = size + 1) (vif : Byte) :
    (∃ k n x, size < k ∧ vifePart d size i vif (Buf.zero 10) = .ok (some (k, n, x))) ∨
    (size = 251 ∧ vifePart d size i vif (Buf.zero 10) = .error (.oobRead 252 252)) := by
  unfold vifePart
  split
  · by_cases h : i < 252
    · left
      rw [Buf.rd_lt d h]
      simp only [ok_bind]
      rw [← pad_zero, show (0 : Nat) = ([] : List Byte).length from rfl, pad_wr _ _ (by simp)]
      simp only [ok_bind]
      rw [vifeLoop, if_neg (by omega)]
      exact ⟨i + 1, _, _, by omega, rfl⟩
    · right
      rw [Buf.rd_oob d (by omega)]
      refine ⟨by omega, ?_⟩
      simp only [error_bind]; congr 2; omega
  · left; exact ⟨i, _, _, hi, rfl⟩

theorem strDecode_zero (src : List Byte) (n : Nat) (h : n ≤ src.length) (hn : n ≤ 127) :
    strDecode (Buf.zero 128).bytes src n = .ok (pad 128 (src.take n).reverse).bytes := by
  rw [strDecode_eq _ _ _ h (by simp; omega)]
  congr 1
  rw [pad_bytes (by simp; omega)]
  congr 1
  have hl : (src.take n).reverse.length = n := by simp; omega
  rw [hl, show 128 - n = (128 - (n + 1)) + 1 by omega, List.replicate_succ]
  congr 1
  simp only [Buf.zero, List.drop_replicate]

theorem vifPart_eq (d : Buf 252) (size : Nat) (hs : size ≤ 252) (i : Nat) (hi : i < size) :
    match pText (d.bytes[i]'(by simp; omega)) (tail d size (i + 1)) with
    | .error e => vifPart d size i (Buf.zero 128) = .error e
    | .ok (some (text, rest)) => vifPart d size i (Buf.zero 128) =
          .ok (some (size - rest.length, d.bytes[i]'(by simp; omega),
            if PlainText (d.bytes[i]'(by simp; omega)) then pad 128 text.reverse else Buf.zero 128)) ∧
        rest = tail d size (size - rest.length) ∧ rest.length ≤ size
    | .ok none => vifPart d size i (Buf.zero 128) = .ok none ∨
        (size = 252 ∧ vifPart d size i (Buf.zero 128) = .error (.oobRead 252 252)) := by
  unfold vifPart pText
  rw [Buf.rd_lt d (by omega)]
  simp only [ok_bind, plain_iff]
  by_cases hv : PlainText (d.bytes[i]'(by simp; omega))
  · simp only [hv, if_true]
    by_cases h : i + 1 < size
    · rw [tail_cons d hs h, Buf.rd_lt d (by omega)]
      simp only [ok_bind, tail_length d hs]
      generalize hN : (d.bytes[i + 1]'(by simp; omega)).toNat = N
      by_cases h1 : N ≤ 128 ∧ N ≤ size - (i + 1 + 1)
      · rw [if_pos h1, if_neg (show ¬ N > 128 by omega), if_neg (show ¬ i + 1 + 1 + N > size by omega)]
        by_cases h2 : N = 128
        · subst h2
          simp only [if_true]
          have : strDecode (Buf.zero 128).bytes (d.bytes.drop (i + 1 + 1)) 128 = .error (.oobWrite 128 128) := by
            unfold strDecode wr
            simp
          rw [this]; rfl
        · rw [if_neg h2, strDecode_zero _ _ (by simp; omega) (by omega)]
          simp only [ok_bind, tail_drop, tail_length d hs]
          refine ⟨?_, by congr 1; omega, by omega⟩
          rw [dif_pos (by simp)]
          congr 3
          · omega
          · rw [tail_take _ _ _ _ (by omega)]
      · rw [if_neg h1]
        simp only
        left
        by_cases h3 : N > 128
        · rw [if_pos h3]
        · rw [if_neg h3, if_pos (by omega)]
    · rw [tail_nil d (by omega)]
      simp only
      by_cases h252 : size = 252
      · right
        rw [Buf.rd_oob d (by omega)]
        refine ⟨h252, ?_⟩
        simp only [error_bind]; congr 2; omega
      · left
        rw [Buf.rd_lt d (by omega)]
        simp only [ok_bind]
        by_cases h3 : (d.bytes[i + 1]'(by simp; omega)).toNat > 128
        · rw [if_pos h3]
        · rw [if_neg h3, if_pos (by omega)]
  · simp only [hv, if_false, tail_length d hs]
    refine ⟨?_, by congr 1; omega, by omega⟩
    congr 3; omega

theorem vifPart_end (d : Buf 252) (size : Nat) (hs : size ≤ 252) (c : Buf 128) :
    vifPart d size size c = .ok none ∨ (size ≤ 251 ∧ ∃ v c', vifPart d size size c = .ok (some (size + 1, v, c'))) ∨
    (251 ≤ size ∧ vifPart d size size c = .error (.oobRead 252 252)) := by
  unfold vifPart
  by_cases h252 : size = 252
  · right; right
    rw [Buf.rd_oob d (by omega)]
    refine ⟨by omega, ?_⟩
    simp only [error_bind]; congr 2
  · rw [Buf.rd_lt d (by omega)]
    simp only [ok_bind, plain_iff]
    by_cases hv : PlainText (d.bytes[size]'(by simp; omega))
    · simp only [hv, if_true]
      by_cases h251 : size = 251
      · right; right
        rw [Buf.rd_oob d (by omega)]
        refine ⟨by omega, ?_⟩
        simp only [error_bind]; congr 2; omega
      · left
        rw [Buf.rd_lt d (by omega)]
        simp only [ok_bind]
        by_cases h3 : (d.bytes[size + 1]'(by simp; omega)).toNat > 128
        · rw [if_pos h3]
        · rw [if_neg h3, if_pos (by omega)]
    · simp only [hv, if_false]
      right; left; exact ⟨by omega, _, _, rfl⟩

theorem copyData_loop (d : Buf 252) (i n : Nat) (acc : List Byte) (h : i + acc.length + n ≤ 252) :
    forN n acc.length (pad 234 acc) (fun j dst => do
      let b ← d.rd (i + j)
      dst.wr j b) =
    if acc.length + n ≤ 234 ∨ n = 0 then .ok (pad 234 (acc ++ (d.bytes.drop (i + acc.length)).take n))
    else .error (.oobWrite 234 (max 234 acc.length)) := by
  induction n generalizing acc with
  | zero => simp [forN]
  | succ n ih =>
    rw [forN, Buf.rd_lt d (by omega)]
    simp only [ok_bind]
    by_cases hl : acc.length < 234
    · rw [pad_wr _ _ hl]
      simp only [ok_bind]
      have := ih (acc ++ [d.bytes[i + acc.length]'(by simp; omega)]) (by simp; omega)
      rw [List.length_append, List.length_singleton] at this
      rw [this]
      have hd : (d.bytes.drop (i + acc.length)).take (n + 1) =
          d.bytes[i + acc.length]'(by simp; omega) :: (d.bytes.drop (i + (acc.length + 1))).take n := by
        rw [List.drop_eq_getElem_cons (by simp; omega), List.take_succ_cons, Nat.add_assoc]
      rw [hd]
      by_cases h2 : acc.length + (n + 1) ≤ 234
      · rw [if_pos (by omega), if_pos (by omega)]; simp
      · by_cases h3 : n = 0
        · omega
        · rw [if_neg (by omega), if_neg (by omega)]; congr 2; omega
    · unfold Buf.wr
      rw [if_neg hl, if_neg (by omega)]
      simp only [error_bind]
      congr 2; omega

theorem copyData_eq (d : Buf 252) (i n : Nat) (h : i + n ≤ 252) :
    copyData d i n (Buf.zero 234) =
      if n ≤ 234 then .ok (pad 234 ((d.bytes.drop i).take n)) else .error (.oobWrite 234 234) := by
  unfold copyData
  have := copyData_loop d i n [] (by simpa using h)
  rw [pad_zero] at this
  simp only [List.length_nil, Nat.zero_add, Nat.add_zero, List.nil_append] at this
  rw [this]
  by_cases hn : n ≤ 234
  · rw [if_pos (.inl hn), if_pos hn]
  · rw [if_neg (by omega), if_neg hn]; rfl

/-! ### one record -/

/-- index representation of a pure result -/
def conv (size : Nat) : C (Option (Rec × List Byte)) → C (Option (Record × Nat))
  | .error e => .error e
  | .ok none => .ok none
  | .ok (some (r, rest)) => .ok (some (mkRec r, size - rest.length))

theorem varRecord_eq (d : Buf 252) (size : Nat) (hs : size ≤ 252) (i : Nat) (hi : i < size) :
    (varRecord d size i = conv size (pRec (tail d size i))) ∨
    (251 ≤ size ∧ pRec (tail d size i) = .ok none ∧ varRecord d size i = .error (.oobRead 252 252)) := by
  unfold varRecord
  rw [tail_cons d hs hi, Buf.rd_lt d (by omega), pRec]
  simp only [ok_bind]
  generalize hdif : d.bytes[i]'(by simp; omega) = dif
  by_cases hsp : dif = 0x0F ∨ dif = 0x1F
  · left
    rw [if_pos hsp, if_pos hsp]
    simp only [Record.new]
    rw [copyData_eq _ _ _ (by omega), tail_length d hs]
    by_cases hl : size - (i + 1) ≤ 234
    · rw [if_pos hl, if_pos hl]
      simp only [ok_bind, conv, mkRec, List.length_nil, Nat.sub_zero, Record.new, tail_length d hs]
      congr 3
      · rw [← tail_take d size (i + 1) _ (by omega), List.take_of_length_le (by simp [hs])]
      · omega
    · rw [if_neg hl, if_neg hl]; rfl
  · rw [if_neg hsp, if_neg hsp]
    have h1 := difeLoop_eq d size hs 10 i [] (by simp) hi
    rw [pad_zero, hdif] at h1
    simp only [List.length_nil, List.nil_append, Nat.zero_add] at h1
    simp only [Record.new]
    revert h1
    cases hp : pChain 10 dif (tail d size (i + 1)) with
    | none =>
      simp only
      rintro (h1 | ⟨n, x, h1⟩ | ⟨h0, h1⟩)
      · left; rw [h1]; rfl
      · left; rw [h1]; simp only [ok_bind]; rw [if_pos (by omega)]; rfl
      · right; rw [h1]; exact ⟨by omega, trivial, rfl⟩
    | some p =>
      obtain ⟨difes, rest⟩ := p
      simp only
      rintro ⟨h1, h2, h3, h4⟩
      rw [h1]
      simp only [ok_bind]
      have e1 : size - rest.length - 1 + 1 = i + difes.length + 1 := by omega
      rw [e1, if_neg (by omega)]
      cases rest with
      | nil =>
        simp only [List.length_nil, Nat.add_zero] at h3
        simp only
        rw [h3]
        rcases vifPart_end d size hs (Buf.zero 128) with h5 | ⟨h0, v, c, h5⟩ | ⟨h0, h5⟩
        · left; rw [h5]; rfl
        · rw [h5]
          simp only [ok_bind]
          rcases vifePart_past d size (size + 1) (by omega) h0 rfl v with ⟨k, n, x, h6, h7⟩ | ⟨h6, h7⟩
          · left; rw [h7]; simp only [ok_bind]; rw [if_pos (by omega)]; rfl
          · right; rw [h7]; exact ⟨by omega, trivial, rfl⟩
        · right; rw [h5]; exact ⟨h0, trivial, rfl⟩
      | cons vif l =>
        simp only
        have hlt : i + difes.length + 1 < size := by simp at h3; omega
        rw [tail_cons d hs hlt] at h4
        injection h4 with h41 h42
        have h5 := vifPart_eq d size hs (i + difes.length + 1) hlt
        rw [← h41, ← h42] at h5
        revert h5
        cases ht : pText vif l with
        | error e => simp only; intro h5; left; rw [h5]; rfl
        | ok o =>
          cases o with
          | none =>
            simp only
            rintro (h5 | ⟨h0, h5⟩)
            · left; rw [h5]; rfl
            · right; rw [h5]; exact ⟨by omega, rfl, rfl⟩
          | some q =>
            obtain ⟨text, l2⟩ := q
            simp only
            rintro ⟨h5, h6, h7⟩
            rw [h5]
            simp only [ok_bind]
            have h8 := vifePart_eq d size hs (size - l2.length) (by omega) vif
            rw [← h6] at h8
            revert h8
            cases hp2 : pChain 10 vif l2 with
            | none =>
              simp only
              rintro (h8 | ⟨k, n, x, h9, h8⟩ | ⟨h0, h8⟩)
              · left; rw [h8]; rfl
              · left; rw [h8]; simp only [ok_bind]; rw [if_pos (by omega)]; rfl
              · right; rw [h8]; exact ⟨by omega, trivial, rfl⟩
            | some q =>
              obtain ⟨vifes, l3⟩ := q
              simp only
              rintro ⟨h8, h9, h10, h11⟩
              rw [h8]
              simp only [ok_bind, varlen_iff, difLength_eq]
              rw [if_neg (by omega)]
              have hl3 : l3 = tail d size (size - l3.length) := by
                conv => lhs; rw [h11]
                congr 1; omega
              have hfin : ∀ len, len ≤ 234 → len ≤ l3.length →
                  copyData d (size - l3.length) len (Buf.zero 234) = .ok (pad 234 (l3.take len)) := by
                intro len hlen hle
                rw [copyData_eq _ _ _ (by omega), if_pos hlen]
                congr 2
                conv => rhs; rw [hl3]
                rw [tail_take _ _ _ _ (by omega)]
              unfold pLen
              by_cases hvl : dif.toNat % 16 = 0xD
              · rw [if_pos hvl, if_pos hvl, width_varlen dif hvl]
                cases hl : l3 with
                | nil =>
                  simp only [List.length_nil, Nat.sub_zero, List.head?_nil, Option.map_none]
                  by_cases h252 : size = 252
                  · right
                    rw [Buf.rd_oob d (by omega), h252]
                    exact ⟨by omega, trivial, rfl⟩
                  · left
                    rw [Buf.rd_lt d (by omega)]
                    simp only [ok_bind]
                    rw [if_pos (by have := lvarLength_eq (d.bytes[size]'(by simp; omega)); omega)]
                    rfl
                | cons b l4 =>
                  simp only [List.head?_cons, Option.map_some]
                  have hlt3 : size - l3.length < size := by rw [hl]; simp; rw [hl] at h10; simp at h10; omega
                  have hb : d.rd (size - (b :: l4).length) = .ok b := by
                    rw [← hl]
                    rw [tail_cons d hs hlt3] at hl3
                    rw [Buf.rd_lt d (by omega)]
                    have hh := hl.symm.trans hl3
                    injection hh with h _
                    congr 1
                    exact h.symm
                  rw [hb]
                  simp only [ok_bind, lvarLength_eq]
                  left
                  have hle := lvarBytes_le b
                  rw [hl] at hfin h10
                  by_cases hfit : lvarBytes b + 1 ≤ (b :: l4).length
                  · rw [if_neg (by omega), if_pos hfit, hfin _ (by omega) hfit]
                    simp only [ok_bind, conv, mkRec, List.length_take, List.length_drop, Nat.min_eq_left hfit]
                    congr 3; omega
                  · rw [if_pos (by omega), if_neg hfit]; rfl
              · rw [if_neg hvl, if_neg hvl]
                simp only
                left
                have hle := width_le dif
                by_cases hfit : width dif ≤ l3.length
                · rw [if_neg (by omega), if_pos hfit, hfin _ (by omega) hfit]
                  simp only [ok_bind, conv, mkRec, List.length_take, List.length_drop, Nat.min_eq_left hfit]
                  congr 3; omega
                · rw [if_pos (by omega), if_neg hfit]; rfl

end Mbus
