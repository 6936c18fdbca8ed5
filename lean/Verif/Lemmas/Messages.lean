import Verif.Model.Messages
import Verif.Spec.Messages
import Verif.Lemmas.Frame
import Verif.Lemmas.Record
/- Lemmas for Props/Messages.lean. -/
namespace Mbus
open Spec

theorem hex2l_eq (b : Byte) : fmtHex2L b = hex2l b := by
  revert b; exact forall_byte (by decide +kernel)

/-- forget the message -/
def silent {α β : Type} (x : C (α × β)) : C α := x.map Prod.fst

@[simp] theorem silent_ok {α β : Type} (a : α) (b : β) : silent (.ok (a, b)) = .ok a := rfl
@[simp] theorem silent_error {α β : Type} (e : Fault) : silent (.error e : C (α × β)) = .error e := rfl

theorem verifyE_mute (f : Frame) : silent (frameVerifyE f) = frameVerify f := by
  have ht : silent (verifyTailE f) = (if f.stop ≠ FRAME_STOP then .ok (-1)
    else do
      let ck ← calcChecksum f
      if f.checksum ≠ ck then .ok (-1) else .ok 0) := by
    unfold verifyTailE
    split
    · rfl
    · cases calcChecksum f with
      | error e => rfl
      | ok ck => simp only [ok_bind]; split <;> rfl
  unfold frameVerifyE frameVerify
  simp only
  rw [← ht]
  repeat' split
  all_goals rfl

/-- forget the message of a call with code and object -/
def silent2 {α β γ : Type} (x : C (α × β × γ)) : C (α × β) := x.map fun q => (q.1, q.2.1)

@[simp] theorem silent2_ok {α β γ : Type} (a : α) (b : β) (c : γ) : silent2 (.ok (a, b, c)) = .ok (a, b) := rfl
@[simp] theorem silent2_error {α β γ : Type} (e : Fault) : silent2 (.error e : C (α × β × γ)) = .error e := rfl

theorem silent2_bind {α β γ δ : Type} (x : C δ) (k : δ → C (α × β × γ)) : silent2 (x >>= k) = x >>= fun d => silent2 (k d) := by
  cases x <;> rfl

theorem silent2_if {α β γ : Type} (p : Prop) [Decidable p] (x y : C (α × β × γ)) : silent2 (if p then x else y) = if p then silent2 x else silent2 y := by
  split <;> rfl

theorem parseE_mute (f : Frame) (data : List Byte) (size : Nat) : silent2 (mbusParseE f data size) = mbusParse f data size := by
  have hw : ∀ g : Frame, silent2 (do let (v, m) ← frameVerifyE g; if v ≠ 0 then (.ok (-3, g, m) : C (Int × Frame × Said)) else .ok (0, g, m)) =
      (do let v ← frameVerify g; if v ≠ 0 then .ok (-3, g) else .ok (0, g)) := by
    intro g
    rw [← verifyE_mute]
    cases frameVerifyE g with
    | error e => rfl
    | ok q => obtain ⟨v, m⟩ := q; simp only [ok_bind, silent_ok]; split <;> rfl
  unfold mbusParseE mbusParse
  simp only [silent2_if, silent2_bind, silent2_ok, hw]

/-! ### exact messages of the link layer -/

/-- the message for the bytes of a short telegram -/
def sayShort (c a ck st : Byte) : Said :=
  if c ∉ shortCodes then some (unknownCode c) else if st ≠ 0x16 then some (cs! "No frame stop")
  else if ck ≠ c + a then some (badSum ck (c + a)) else none

/-- the message for the bytes of a control or long telegram of the right length -/
def sayLong (s c a ci : Byte) (p : List Byte) (ck st : Byte) : Said :=
  if s ≠ 0x68 then some (cs! "No frame start") else if c ∉ dataCodes then some (unknownCode c)
  else if st ≠ 0x16 then some (cs! "No frame stop")
  else if ck ≠ byteSum (c :: a :: ci :: p) then some (badSum ck (byteSum (c :: a :: ci :: p))) else none

theorem verifyE_short (f : Frame) (c a ck st : Byte) :
    frameVerifyE (shortFrame f c a ck st) = .ok (if sayShort c a ck st = none then 0 else -1, sayShort c a ck st) := by
  have hc := calcChecksum_eq (shortFrame f c a ck st) (by simp [shortFrame])
  have hs : specChecksum (shortFrame f c a ck st) = c + a := by simp [specChecksum, shortFrame]
  unfold frameVerifyE verifyTailE
  simp only [mem_shortCodes, hc, hs, ok_bind]
  unfold sayShort TYPE_ACK TYPE_SHORT SHORT_START FRAME_STOP badSum unknownCode msgControl
  simp only [shortFrame, hex2l_eq]
  by_cases h1 : c ∈ shortCodes <;> by_cases h2 : st = 0x16 <;> by_cases h3 : ck = c + a <;> simp [h1, h2, h3]

theorem verifyE_long (f : Frame) (l s2 c a ci ck st : Byte) (p : List Byte) (b : Buf 252)
    (hl : l.toNat = p.length + 3) (hb : b.bytes = p ++ f.data.bytes.drop p.length) :
    frameVerifyE (longFrame f l s2 c a ci p ck st b) =
      .ok (if sayLong s2 c a ci p ck st = none then 0 else -1, sayLong s2 c a ci p ck st) := by
  have hp : p.length ≤ 252 := by have := l.toNat_lt; omega
  have hl' : UInt8.ofNat (p.length + 3) = l := by rw [← hl]; simp
  have ht : b.bytes.take p.length = p := by rw [hb]; simp
  have hc := calcChecksum_eq (longFrame f l s2 c a ci p ck st b) (fun _ => hp)
  have hs : specChecksum (longFrame f l s2 c a ci p ck st b) = byteSum (c :: a :: ci :: p) := by
    unfold specChecksum longFrame
    cases p with
    | nil => simp
    | cons x xs => simp only [ht]; simp
  have hlen : calcLength (longFrame f l s2 c a ci p ck st b) = l := by
    unfold calcLength longFrame TYPE_CONTROL TYPE_LONG
    cases p with
    | nil => simp at hl' ⊢; exact hl'
    | cons x xs => simp only [List.cons_ne_nil, if_false]; simpa using hl'
  unfold frameVerifyE verifyTailE
  simp only [mem_dataCodes, hc, hs, ok_bind, hlen]
  unfold sayLong TYPE_ACK TYPE_SHORT TYPE_CONTROL TYPE_LONG CONTROL_START FRAME_STOP badSum unknownCode msgControl
  simp only [longFrame, hex2l_eq]
  have ty : ∀ q : Prop, [Decidable q] → (if q then (3 : Int) else 4) ≠ 1 ∧ (if q then (3 : Int) else 4) ≠ 2 ∧
      ((if q then (3 : Int) else 4) = 3 ∨ (if q then (3 : Int) else 4) = 4) := by
    intro q _; by_cases h : q <;> simp [h]
  obtain ⟨t1, t2, t3⟩ := ty (p = [])
  rw [if_neg t1, if_neg t2, if_pos t3]
  by_cases h0 : s2 = 0x68 <;> by_cases h1 : c ∈ dataCodes <;> by_cases h2 : st = 0x16 <;> by_cases h3 : ck = byteSum (c :: a :: ci :: p) <;>
    simp [h0, h1, h2, h3]

/-- the message for any bytes -/
def says : List Byte → Said
  | [] => some (cs! "Got null pointer to frame, data or zero data_size.")
  | d0 :: r =>
    if d0 = 0xE5 then none
    else if d0 = 0x10 then
      match r with
      | [c, a, ck, st] => sayShort c a ck st
      | _ => if r.length < 4 then none else some (cs! "Too much data in frame.")
    else if d0 = 0x68 then
      match r with
      | l1 :: l2 :: q =>
        if l1.toNat < 3 ∨ l1 ≠ l2 then some (cs! "Invalid M-Bus frame length.")
        else if q.length < 3 + l1.toNat then none
        else if 3 + l1.toNat < q.length then some (cs! "Too much data in frame.")
        else sayLong (q.getD 0 0) (q.getD 1 0) (q.getD 2 0) (q.getD 3 0) ((q.drop 4).take (l1.toNat - 3)) (q.getD (q.length - 2) 0) (q.getD (q.length - 1) 0)
      | _ => none
    else some (cs! "Invalid M-Bus frame start.")

theorem sayE_tail (m : Said) (F : Frame) :
    (if (if m = none then (0 : Int) else -1) ≠ 0 then (Except.ok (-3, F, m) : C (Int × Frame × Said)) else .ok (0, F, m)) =
      .ok (if m = none then 0 else -3, F, m) := by
  by_cases h : m = none <;> simp [h]

theorem parseE_long (f : Frame) (l s2 c a ci ck st : Byte) (p rest : List Byte) (hl : l.toNat = p.length + 3) :
    ∃ F, mbusParseE f (0x68 :: l :: l :: s2 :: c :: a :: ci :: (p ++ ck :: st :: rest)) (p.length + 9) =
        .ok (if sayLong s2 c a ci p ck st = none then 0 else -3, F, sayLong s2 c a ci p ck st) := by
  have hp : p.length ≤ 252 := by have := l.toNat_lt; omega
  obtain ⟨b, hb1, hb2⟩ := copy_loop (0x68 :: l :: l :: s2 :: c :: a :: ci :: (p ++ ck :: st :: rest)) p.length 0
    f.data (by omega) (by simp; omega)
  have hb : b.bytes = p ++ f.data.bytes.drop p.length := by simpa using hb2
  refine ⟨longFrame f l s2 c a ci p ck st b, ?_⟩
  generalize hD : (0x68 :: l :: l :: s2 :: c :: a :: ci :: (p ++ ck :: st :: rest) : List Byte) = D at *
  have r0 : rd D 0 = .ok 0x68 := by subst hD; rfl
  have r1 : rd D 1 = .ok l := by subst hD; rfl
  have r2 : rd D 2 = .ok l := by subst hD; rfl
  have r3 : rd D 3 = .ok s2 := by subst hD; rfl
  have r4 : rd D 4 = .ok c := by subst hD; rfl
  have r5 : rd D 5 = .ok a := by subst hD; rfl
  have r6 : rd D 6 = .ok ci := by subst hD; rfl
  have r7 : rd D (p.length + 9 - 2) = .ok ck := by
    subst hD
    rw [rd_eq_ok, show p.length + 9 - 2 = p.length + 7 by omega]; simp
  have r8 : rd D (p.length + 9 - 1) = .ok st := by
    subst hD
    rw [rd_eq_ok, show p.length + 9 - 1 = (p.length + 1) + 7 by omega]
    simp only [List.getElem?_cons_succ]
    rw [List.getElem?_append_right (by omega)]; simp
  have g0 : ¬ (p.length + 9 = 0) := by omega
  have g0' : ¬ (p.length + 9 < 3) := by omega
  have g1 : ¬ (l < 3) := by
    intro h
    have := UInt8.lt_iff_toNat_lt.mp h
    simp at this; omega
  have g2 : ¬ (p.length + 9 < 6 + l.toNat) := by omega
  have g3 : ¬ (p.length + 9 > 6 + l.toNat) := by omega
  have g4 : l.toNat - 3 = p.length := by omega
  have k0 : ((0x68 : Byte) = ACK_START) = False := eq_false (by decide)
  have k1 : ((0x68 : Byte) = SHORT_START) = False := eq_false (by decide)
  have k2 : ((0x68 : Byte) = LONG_START) = True := eq_true (by decide)
  unfold mbusParseE
  simp only [r0, r1, r2, r3, r4, r5, r6, r7, r8, g0, g0', g1, g2, g3, g4, hb1, ok_bind, if_false, if_true,
    k0, k1, k2, ne_eq, not_true_eq_false]
  have e : (if p.length = 0 then TYPE_CONTROL else TYPE_LONG) = (if p = [] then 3 else 4) := by
    cases p <;> simp [TYPE_CONTROL, TYPE_LONG]
  simp only [e]
  have hv := verifyE_long f l s2 c a ci ck st p b hl hb
  unfold longFrame at hv ⊢
  simp only [hv, ok_bind]
  exact sayE_tail _ _

theorem parseE_short (f : Frame) (c a ck st : Byte) (rest : List Byte) :
    ∃ F, mbusParseE f (0x10 :: c :: a :: ck :: st :: rest) 5 = .ok (if sayShort c a ck st = none then 0 else -3, F, sayShort c a ck st) := by
  have hv := verifyE_short f c a ck st
  refine ⟨shortFrame f c a ck st, ?_⟩
  unfold mbusParseE
  simp only [rd, List.getElem?_cons_zero, List.getElem?_cons_succ, ok_bind]
  have k0 : ((0x10 : Byte) = ACK_START) = False := eq_false (by decide)
  simp only [k0, if_false, if_true, show TYPE_SHORT = 2 from rfl, show SHORT_START = 0x10 from rfl]
  unfold shortFrame at hv ⊢
  simp only [hv, ok_bind]
  exact sayE_tail _ _

/-- the message of the parser as a function of the bytes alone -/
theorem parseE_says (f : Frame) (bs : List Byte) : ∃ r g, mbusParseE f bs bs.length = .ok (r, g, says bs) ∧ (r < 0 ↔ says bs ≠ none) := by
  match bs with
  | [] => exact ⟨-1, f, by simp [mbusParseE, says], by simp [says]⟩
  | d0 :: r =>
    by_cases h0 : d0 = 0xE5
    · subst h0
      refine ⟨0, { f with start1 := 0xE5, type := 1 }, ?_, ?_⟩
      · simp [mbusParseE, says, rd, ACK_START, TYPE_ACK]
      · simp [says]
    by_cases h1 : d0 = 0x10
    · subst h1
      by_cases h5 : r.length = 4
      · match r, h5 with
        | [c, a, ck, st], _ =>
          obtain ⟨F, hF⟩ := parseE_short f c a ck st []
          refine ⟨_, F, hF, ?_⟩
          simp only [says]
          by_cases h : sayShort c a ck st = none <;> simp [h]
      · have hc : says (0x10 :: r) = if r.length < 4 then none else some (cs! "Too much data in frame.") := by
          simp only [says]
          split
          · contradiction
          split
          · split
            · simp at h5
            · rfl
          · simp at *
        refine ⟨if r.length < 4 then 4 - (r.length : Int) else -2, f, ?_, ?_⟩
        · rw [hc]
          simp [mbusParseE, rd, ACK_START, SHORT_START]
          by_cases hlt : r.length < 4
          · have : r.length + 1 < 5 := by omega
            simp [hlt, this]; omega
          · have : ¬ (r.length + 1 < 5) := by omega
            simp [hlt, h5, this]
        · rw [hc]; split
          · simp; omega
          · simp
    by_cases h2 : d0 = 0x68
    · subst h2
      match r with
      | [] => exact ⟨2, f, by simp [mbusParseE, says, rd, ACK_START, SHORT_START, LONG_START], by simp [says]⟩
      | [x] => exact ⟨1, f, by simp [mbusParseE, says, rd, ACK_START, SHORT_START, LONG_START], by simp [says]⟩
      | l1 :: l2 :: q =>
        by_cases g1 : l1.toNat < 3 ∨ l1 ≠ l2
        · refine ⟨-2, { f with start1 := 0x68, length1 := l1, length2 := l2 }, ?_, ?_⟩
          · have e3 : ¬ (q.length + 1 + 1 + 1 < 3) := by omega
            by_cases hh : l1 < 3
            · simp [mbusParseE, says, rd, ACK_START, SHORT_START, LONG_START, g1, hh, e3]
            · have hne : l1 ≠ l2 := by
                rcases g1 with g | g
                · exact absurd (UInt8.lt_iff_toNat_lt.mpr (by simpa using g)) hh
                · exact g
              simp [mbusParseE, says, rd, ACK_START, SHORT_START, LONG_START, hh, hne, e3]
          · simp [says, g1]
        have g1' : l1 = l2 ∧ 3 ≤ l1.toNat := by
          simp at g1; exact ⟨g1.2, g1.1⟩
        obtain ⟨rfl, g3⟩ := g1'
        have g3' : ¬ l1 < 3 := by
          intro h
          have := UInt8.lt_iff_toNat_lt.mp h
          simp at this; omega
        by_cases g4 : q.length < 3 + l1.toNat
        · refine ⟨((3 + l1.toNat - q.length : Nat) : Int), { f with start1 := 0x68, length1 := l1, length2 := l1 }, ?_, ?_⟩
          · have e : 6 + l1.toNat - (q.length + 1 + 1 + 1) = 3 + l1.toNat - q.length := by omega
            have e2 : q.length + 1 + 1 + 1 < 6 + l1.toNat := by omega
            have e3 : ¬ (q.length + 1 + 1 + 1 < 3) := by omega
            simp [mbusParseE, says, rd, ACK_START, SHORT_START, LONG_START, g3, g3', g4, e, e2, e3]
          · simp [says, g4, g3]
        by_cases g5 : 3 + l1.toNat < q.length
        · refine ⟨-2, { f with start1 := 0x68, length1 := l1, length2 := l1 }, ?_, ?_⟩
          · have e2 : ¬ (q.length + 1 + 1 + 1 < 6 + l1.toNat) := by omega
            have e3 : ¬ (q.length + 1 + 1 + 1 < 3) := by omega
            have e4 : 6 + l1.toNat < q.length + 1 + 1 + 1 := by omega
            simp [mbusParseE, says, rd, ACK_START, SHORT_START, LONG_START, g3', g4, g5, e2, e3, e4]
            omega
          · simp [says, g4, g5, show ¬ l1.toNat < 3 by omega]
        obtain ⟨b0, b1, b2, s2, c, a, ci, p, ck, st, hp, hq⟩ := split_long (0x68 :: l1 :: l1 :: q) (l1.toNat - 3) (by simp; omega)
        injection hq with k1 hq
        injection hq with k2 hq
        injection hq with k3 hq
        subst hq
        obtain ⟨F, hF⟩ := parseE_long f l1 s2 c a ci ck st p [] (by omega)
        have hlen : (0x68 :: l1 :: l1 :: s2 :: c :: a :: ci :: (p ++ [ck, st])).length = p.length + 9 := by simp
        have hsay : says (0x68 :: l1 :: l1 :: s2 :: c :: a :: ci :: (p ++ [ck, st])) = sayLong s2 c a ci p ck st := by
          have e1 : (s2 :: c :: a :: ci :: (p ++ [ck, st])).length = p.length + 6 := by simp
          have i1 : (s2 :: c :: a :: ci :: (p ++ [ck, st])).getD (p.length + 6 - 2) 0 = ck := by
            rw [show p.length + 6 - 2 = p.length + 4 by omega]; simp
          have i2 : (s2 :: c :: a :: ci :: (p ++ [ck, st])).getD (p.length + 6 - 1) 0 = st := by
            rw [show p.length + 6 - 1 = p.length + 1 + 4 by omega]
            simp
          have i3 : ((s2 :: c :: a :: ci :: (p ++ [ck, st])).drop 4).take (l1.toNat - 3) = p := by
            rw [← hp]; simp
          have n1 : ((0x68 : Byte) = 0xE5) = False := eq_false (by decide)
          have n2 : ((0x68 : Byte) = 0x10) = False := eq_false (by decide)
          simp only [says, n1, n2, if_false, if_true]
          rw [if_neg (by simp; omega), if_neg (by rw [e1]; omega), if_neg (by rw [e1]; omega), e1, i1, i2, i3]
          rfl
        rw [hlen, hsay]
        refine ⟨_, F, hF, ?_⟩
        by_cases h : sayLong s2 c a ci p ck st = none <;> simp [h]
    · refine ⟨-4, f, ?_, ?_⟩
      · simp [mbusParseE, says, rd, ACK_START, SHORT_START, LONG_START, h0, h1, h2]
      · simp [says, h0, h1, h2]

/-- the message names the defect the bytes have, and every defect has its message -/
theorem says_iff (bs t : List Byte) : says bs = some t ↔ Wrong bs t := by
  constructor
  · intro h
    match bs with
    | [] => simp only [says, Option.some.injEq] at h; subst h; exact .empty
    | d0 :: r =>
      simp only [says] at h
      split at h
      · cases h
      split at h
      · rename_i h1
        subst h1
        split at h
        · rename_i c a ck st
          unfold sayShort at h
          split at h
          · cases h; exact .shortCode _ _ _ _ (by assumption)
          split at h
          · cases h; exact .shortStop _ _ _ _ (by simp_all) (by assumption)
          split at h
          · rename_i k1 k2 k3
            cases h
            rw [Classical.not_not] at k1 k2
            subst k2
            exact .shortSum _ _ _ k1 k3
          · cases h
        · rename_i k
          split at h
          · cases h
          · cases h
            refine .longShort _ ?_
            apply Classical.byContradiction
            intro hn
            have h4 : r.length = 4 := by omega
            match r, h4 with
            | [c, a, ck, st], _ => exact k c a ck st rfl
      split at h
      · rename_i h1 h2
        subst h2
        split at h
        · rename_i l1 l2 q
          split at h
          · cases h; exact .length _ _ _ (by assumption)
          rename_i k
          have k' : l1 = l2 ∧ 3 ≤ l1.toNat := by simp at k; exact ⟨k.2, k.1⟩
          obtain ⟨rfl, k3⟩ := k'
          split at h
          · cases h
          split at h
          · cases h; exact .tooLong _ _ k3 (by omega)
          rename_i k4 k5
          obtain ⟨b0, b1, b2, s2, c, a, ci, p, ck, st, hp, hq⟩ := split_long (0x68 :: l1 :: l1 :: q) (l1.toNat - 3) (by simp; omega)
          injection hq with _ hq
          injection hq with _ hq
          injection hq with _ hq
          subst hq
          have e1 : (s2 :: c :: a :: ci :: (p ++ [ck, st])).length = p.length + 6 := by simp
          have i1 : (s2 :: c :: a :: ci :: (p ++ [ck, st])).getD (p.length + 6 - 2) 0 = ck := by
            rw [show p.length + 6 - 2 = p.length + 4 by omega]; simp
          have i2 : (s2 :: c :: a :: ci :: (p ++ [ck, st])).getD (p.length + 6 - 1) 0 = st := by
            rw [show p.length + 6 - 1 = p.length + 1 + 4 by omega]
            simp
          have i3 : ((s2 :: c :: a :: ci :: (p ++ [ck, st])).drop 4).take (l1.toNat - 3) = p := by
            rw [← hp]; simp
          rw [e1, i1, i2, i3] at h
          change sayLong s2 c a ci p ck st = some t at h
          unfold sayLong at h
          split at h
          · cases h; exact .second _ _ _ _ _ _ _ _ (by omega) (by assumption)
          rename_i j1
          rw [Classical.not_not] at j1
          subst j1
          split at h
          · cases h; exact .code _ _ _ _ _ _ _ (by omega) (by assumption)
          rename_i j2
          rw [Classical.not_not] at j2
          split at h
          · cases h; exact .stop _ _ _ _ _ _ _ (by omega) j2 (by assumption)
          rename_i j3
          rw [Classical.not_not] at j3
          subst j3
          split at h
          · cases h; exact .sum _ _ _ _ _ _ (by omega) j2 (by assumption)
          · cases h
        · cases h
      · cases h
        exact .start _ _ (by simp_all)
  · intro h
    have n1 : ((0x10 : Byte) = 0xE5) = False := eq_false (by decide)
    have n2 : ((0x68 : Byte) = 0xE5) = False := eq_false (by decide)
    have n3 : ((0x68 : Byte) = 0x10) = False := eq_false (by decide)
    have hlong : ∀ (n s c a ci ck st : Byte) (p : List Byte), n.toNat = p.length + 3 →
        says (0x68 :: n :: n :: s :: c :: a :: ci :: (p ++ [ck, st])) = sayLong s c a ci p ck st := by
      intro n s2 c a ci ck st p hn
      have e1 : (s2 :: c :: a :: ci :: (p ++ [ck, st])).length = p.length + 6 := by simp
      have i1 : (s2 :: c :: a :: ci :: (p ++ [ck, st])).getD (p.length + 6 - 2) 0 = ck := by
        rw [show p.length + 6 - 2 = p.length + 4 by omega]; simp
      have i2 : (s2 :: c :: a :: ci :: (p ++ [ck, st])).getD (p.length + 6 - 1) 0 = st := by
        rw [show p.length + 6 - 1 = p.length + 1 + 4 by omega]
        simp
      have i3 : ((s2 :: c :: a :: ci :: (p ++ [ck, st])).drop 4).take (n.toNat - 3) = p := by
        rw [show n.toNat - 3 = p.length by omega]; simp
      simp only [says, n2, n3, if_false, if_true]
      rw [if_neg (by simp; omega), if_neg (by rw [e1]; omega), if_neg (by rw [e1]; omega), e1, i1, i2, i3]
      rfl
    cases h with
    | empty => rfl
    | start b l h =>
      simp only [List.mem_cons, List.not_mem_nil, or_false, not_or] at h
      simp [says, h.1, h.2.1, h.2.2]
    | longShort l h =>
      simp only [says, n1, if_false, if_true]
      split
      · simp at h
      · rw [if_neg (by omega)]
    | shortCode c a ck st h => simp [says, n1, sayShort, h]
    | shortStop c a ck st h h2 => simp [says, n1, sayShort, h, h2]
    | shortSum c a ck h h2 => simp [says, n1, sayShort, h, h2]
    | length l1 l2 l h => simp only [says, n2, n3, if_false, if_true]; rw [if_pos h]
    | tooLong n l h1 h2 =>
      simp only [says, n2, n3, if_false, if_true]
      rw [if_neg (by simp; omega), if_neg (by omega), if_pos (by omega)]
    | second n s c a ci ck st p hn h => rw [hlong _ _ _ _ _ _ _ _ hn]; simp [sayLong, h]
    | code n c a ci ck st p hn h => rw [hlong _ _ _ _ _ _ _ _ hn]; simp [sayLong, h]
    | stop n c a ci ck st p hn h h2 => rw [hlong _ _ _ _ _ _ _ _ hn]; simp [sayLong, h, h2]
    | sum n c a ci ck p hn h h2 => rw [hlong _ _ _ _ _ _ _ _ hn]; simp [sayLong, h, h2]

end Mbus
