import Verif.Spec.Messages
import Verif.Lemmas.MessagesIo
import Verif.Props.Heap
import Verif.Props.Address
import Verif.Props.Link
import Verif.Props.Transport
import Verif.Props.Lifecycle
/-
Property theorems C119 (`mbus_error_str`: the message of a failed call names what was wrong).  Statements use the model functions of
Model/Messages.lean (which the first conjunct of each theorem ties to the functions of the other theorems) and Spec/Messages.lean.
-/
namespace Mbus
open Spec

/-! ### reading a message back -/

/-- C119: what a call stores is what `mbus_error_str()` shows afterwards; a call that stores nothing leaves the old message. -/
theorem C119_read_back (e : List Byte) (he : e.length = 512) :
    say e none = .ok e ∧
    ∀ t, (0 : Byte) ∉ t → t.length ≤ 511 → ∃ e', say e (some t) = .ok e' ∧ e'.length = 512 ∧ errorStr e' = .ok t := by
  refine ⟨rfl, fun t h0 hl => ?_⟩
  obtain ⟨e', h1, h2, h3⟩ := snprintf_all e t he h0
  exact ⟨e', h1, h2, by rw [h3, List.take_of_length_le hl]⟩

/-- a text that `error_str` can hold -/
def Storable (t : List Byte) : Prop := (0 : Byte) ∉ t ∧ t.length ≤ 511

theorem hex2l_storable (b : Byte) : (0 : Byte) ∉ hex2l b ∧ (hex2l b).length = 2 := by
  refine ⟨?_, rfl⟩
  revert b
  apply forall_byte
  decide +kernel

theorem wrong_storable {bs t : List Byte} (h : Wrong bs t) : Storable t := by
  unfold Storable
  cases h
  case shortCode c a ck st hc => have := hex2l_storable c; simp only [unknownCode, List.mem_append, List.length_append, this]; simp
  case code c a ci ck st p hl hc => have := hex2l_storable c; simp only [unknownCode, List.mem_append, List.length_append, this]; simp
  case shortSum c a ck hc hn =>
    have h1 := hex2l_storable ck
    have h2 := hex2l_storable (c + a)
    simp only [badSum, List.mem_append, List.length_append, h1, h2]
    simp
  case sum n c a ci ck p hl hc hn =>
    have h1 := hex2l_storable ck
    have h2 := hex2l_storable (byteSum (c :: a :: ci :: p))
    simp only [badSum, List.mem_append, List.length_append, h1, h2]
    simp
  all_goals decide

/-! ### link layer -/

/-- C119 (`mbus_parse`): the call fails exactly if it stores a message, and the message it stores is exactly the one that names the first
defect of the bytes. -/
theorem C119_parse (f : Frame) (bs : List Byte) :
    ∃ r g m, mbusParseE f bs bs.length = .ok (r, g, m) ∧ mbusParse f bs bs.length = .ok (r, g) ∧ (r < 0 ↔ m ≠ none) ∧
      ∀ t, m = some t ↔ Wrong bs t := by
  obtain ⟨r, g, h1, h2⟩ := parseE_says f bs
  refine ⟨r, g, says bs, h1, ?_, h2, says_iff bs⟩
  rw [← parseE_mute, h1, silent2_ok]

/-- C119: after `mbus_parse` failed, `mbus_error_str()` is the message that names the first defect of the bytes, whatever it showed before. -/
theorem C119_parse_error_str (f : Frame) (bs e : List Byte) (he : e.length = 512) (r : Int) (g : Frame) (hr : r < 0)
    (h : mbusParse f bs bs.length = .ok (r, g)) :
    ∃ m e' t, mbusParseE f bs bs.length = .ok (r, g, m) ∧ say e m = .ok e' ∧ errorStr e' = .ok t ∧ Wrong bs t := by
  obtain ⟨r', g', m, h1, h2, h3, h4⟩ := C119_parse f bs
  rw [h] at h2
  cases h2
  cases m with
  | none => exact absurd rfl (h3.mp hr)
  | some t =>
    have hw := (h4 t).mp rfl
    obtain ⟨h0, hl⟩ := wrong_storable hw
    obtain ⟨e', k1, _, k3⟩ := (C119_read_back e he).2 t h0 hl
    exact ⟨_, e', t, h1, k1, k3, hw⟩

/-- C119: bytes that are a telegram, or the beginning of one, have no defect; and there is one message for everything else. -/
theorem C119_wrong_iff (bs : List Byte) : (∀ t, ¬ Wrong bs t) ↔ ∃ f r g, mbusParse f bs bs.length = .ok (r, g) ∧ 0 ≤ r := by
  constructor
  · intro h
    obtain ⟨r, g, m, h1, h2, h3, h4⟩ := C119_parse (frameNew 4) bs
    refine ⟨_, r, g, h2, ?_⟩
    cases m with
    | none => exact Int.not_lt.mp fun k => h3.mp k rfl
    | some t => exact absurd ((h4 t).mp rfl) (h t)
  · rintro ⟨f, r, g, h, hr⟩ t ht
    obtain ⟨r', g', m, h1, h2, h3, h4⟩ := C119_parse f bs
    rw [h] at h2
    cases h2
    have := h3.mpr (by rw [(h4 t).mpr ht]; simp)
    omega

theorem C119_wrong_unique (bs t t' : List Byte) (h : Wrong bs t) (h' : Wrong bs t') : t = t' := by
  have h1 := (says_iff bs t).mpr h
  rw [(says_iff bs t').mpr h'] at h1
  exact (Option.some.inj h1).symm

example : Wrong [0x68, 3, 3, 0x68, 8, 1, 0x72, 0x7C, 0x16] (cs! "Invalid checksum (0x7c != 0x7b)") :=
  .sum 3 8 1 0x72 0x7C [] rfl (by decide) (by decide)
example : Wrong [0x10, 0x41, 1, 0x42, 0x16] (cs! "Unknown Control Code 0x41") := .shortCode 0x41 1 0x42 0x16 (by decide)
example : ∀ t, ¬ Wrong [0x68, 3, 3, 0x68, 8, 1, 0x72, 0x7B, 0x16] t := (C119_wrong_iff _).mpr ⟨frameNew 4, 0, _, rfl, by decide⟩

/-! ### frame objects -/

theorem hexDigitL_lower (n : Nat) (h : n < 16) : hexDigitL n = hexLower.getD n 0 := by
  have : ∀ n : Fin 16, hexDigitL n.val = hexLower.getD n.val 0 := by decide
  exact this ⟨n, h⟩

theorem hexDigitsL_low (n : Nat) : ∃ ds : List Nat, (∀ d ∈ ds, d < 16) ∧ hexDigitsL n = ds.map (fun d => hexLower.getD d 0) ∧
    ds.foldl (fun a d => 16 * a + d) 0 = n ∧ 1 ≤ ds.length ∧ (16 ≤ n → 2 ≤ ds.length) ∧ (1 < ds.length → ds.head? ≠ some 0) ∧
    (n ≠ 0 → ds.head? ≠ some 0) := by
  induction n using Nat.strongRecOn with
  | ind n ih =>
    rw [hexDigitsL]
    split
    · rename_i h
      exact ⟨[n], by simpa using h, by simp [hexDigitL_lower n h], by simp, by simp, fun k => by omega, by simp, by simp⟩
    · rename_i h
      obtain ⟨ds, h1, h2, h3, h4, h5, h6, h7⟩ := ih (n / 16) (by omega)
      have hne : ds ≠ [] := by intro k; rw [k] at h4; simp at h4
      have hh : (ds ++ [n % 16]).head? = ds.head? := by cases ds with
        | nil => exact absurd rfl hne
        | cons a l => rfl
      refine ⟨ds ++ [n % 16], ?_, ?_, ?_, by simp, fun _ => by simp; omega, fun _ => by rw [hh]; exact h7 (by omega),
        fun _ => by rw [hh]; exact h7 (by omega)⟩
      · intro d hd
        rcases List.mem_append.mp hd with hd | hd
        · exact h1 d hd
        · simp at hd; omega
      · rw [h2, List.map_append, hexDigitL_lower _ (by omega)]; rfl
      · rw [List.foldl_append, h3]; simp; omega

theorem fmtHexIntL_low (z : Int) : LowHex (fmtHexIntL z) (z % 2 ^ 32).toNat := by
  unfold fmtHexIntL
  obtain ⟨ds, h1, h2, h3, h4, h5, h6, h7⟩ := hexDigitsL_low (z % 2 ^ 32).toNat
  simp only
  split
  · rename_i h
    rw [hexDigitsL, dif_pos h, hexDigitL_lower _ h]
    exact ⟨[0, (z % 2 ^ 32).toNat], by simpa using h, rfl, by simp, by simp, by simp⟩
  · exact ⟨ds, h1, h2, h3, h5 (by omega), fun k => h6 (by omega)⟩

/-- C119 (`mbus_frame_verify`): a message is stored exactly if the frame object (no ACK) does not describe a telegram, and it names the first
defect.  The result is then -1. -/
theorem C119_verify (f : Frame) (hd : f.type = 4 → f.dataSize ≤ 252) :
    ∃ r m, frameVerifyE f = .ok (r, m) ∧ frameVerify f = .ok r ∧ (∀ t, m = some t → Faulty f t) ∧ (m = none → ∀ t, ¬ Faulty f t) ∧
      (m ≠ none ↔ r = -1) := by
  have key : ∃ r m, frameVerifyE f = .ok (r, m) ∧ (∀ t, m = some t → Faulty f t) ∧ (m = none → ∀ t, ¬ Faulty f t) ∧ (m ≠ none ↔ r = -1) := by
    have hc := calcChecksum_eq f hd
    have tailOk : f.type ∈ [2, 3, 4] → objectStart f → objectCode f → objectLengths f →
        ∃ r m, verifyTailE f = .ok (r, m) ∧ (∀ t, m = some t → Faulty f t) ∧ (m = none → ∀ t, ¬ Faulty f t) ∧ (m ≠ none ↔ r = -1) := by
      intro h1 h2 h3 h4
      have hsum : specChecksum f = objectSum f := by
        unfold specChecksum objectSum
        simp at h1
        rcases h1 with h | h | h <;> simp [h, byteSum]
      unfold verifyTailE
      rw [hc, hsum]
      simp only [show FRAME_STOP = 0x16 from rfl, ok_bind]
      split
      · rename_i hs
        exact ⟨_, _, rfl, by rintro t ⟨⟩; exact .stop h1 h2 h3 h4 hs, by simp, by simp⟩
      rename_i hs
      rw [Classical.not_not] at hs
      split
      · rename_i hk
        refine ⟨_, _, rfl, ?_, by simp, by simp⟩
        rintro t ⟨⟩
        have := Faulty.sum h1 h2 h3 h4 hs hk
        unfold badSum at this
        rw [hex2l_eq, hex2l_eq]
        exact this
      · rename_i hk
        refine ⟨_, _, rfl, by simp, fun _ t ht => ?_, by simp⟩
        rw [Classical.not_not] at hk
        cases ht with
        | kind h k => simp at h1 k; omega
        | start _ k => exact k h2
        | code _ _ k => exact k h3
        | lengths g _ _ k =>
          rcases h4 with h4 | h4
          · simp [h4] at g
          · exact k h4.1
        | length g _ _ _ k =>
          rcases h4 with h4 | h4
          · simp [h4] at g
          · exact k h4.2
        | stop _ _ _ _ k => exact k hs
        | sum _ _ _ _ _ k => exact k hk
    unfold frameVerifyE
    split
    · rename_i h
      have h : f.type = 1 := h
      refine ⟨_, _, rfl, by simp, fun _ t ht => ?_, ?_⟩
      · cases ht <;> simp [h] at *
      · split <;> simp
    split
    · rename_i _ h
      have h : f.type = 2 := h
      have hm : f.type ∈ [2, 3, 4] := by rw [h]; simp
      simp only [mem_shortCodes]
      split
      · rename_i hs
        refine ⟨_, _, rfl, ?_, by simp, by simp⟩
        rintro t ⟨⟩
        exact .start hm (by rintro ⟨k, _⟩; rw [if_pos h] at k; exact hs k)
      rename_i hs
      have ho : objectStart f := ⟨by rw [if_pos h]; exact Classical.not_not.mp hs, .inl h⟩
      split
      · rename_i hk
        refine ⟨_, _, rfl, ?_, by simp, by simp⟩
        rintro t ⟨⟩
        unfold msgControl
        rw [hex2l_eq]
        exact .code hm ho (by unfold objectCode; rw [if_pos h]; exact hk)
      · rename_i hk
        exact tailOk hm ho (by unfold objectCode; rw [if_pos h]; exact Classical.not_not.mp hk) (.inl h)
    rename_i n1 n2
    have n1 : f.type ≠ 1 := n1
    have n2 : f.type ≠ 2 := n2
    split
    · rename_i h
      have h : f.type = 3 ∨ f.type = 4 := h
      have hm : f.type ∈ [2, 3, 4] := by simp; omega
      have hm' : f.type ∈ [3, 4] := by simpa using h
      simp only [mem_dataCodes]
      split
      · rename_i hs
        refine ⟨_, _, rfl, ?_, by simp, by simp⟩
        rintro t ⟨⟩
        refine .start hm ?_
        rintro ⟨k1, k2⟩
        rw [if_neg n2] at k1
        rcases hs with hs | hs
        · exact hs k1
        · rcases k2 with k2 | k2
          · exact n2 k2
          · exact hs k2
      rename_i hs
      rw [not_or, Classical.not_not, Classical.not_not] at hs
      have ho : objectStart f := ⟨by rw [if_neg n2]; exact hs.1, .inr hs.2⟩
      have hcode : f.control ∈ dataCodes → objectCode f := by unfold objectCode; rw [if_neg n2]; exact id
      have hlen : calcLength f = objectLength f := by
        unfold calcLength objectLength TYPE_CONTROL TYPE_LONG
        rcases h with h | h <;> simp [h]
      rw [hlen]
      split
      · rename_i hk
        refine ⟨_, _, rfl, ?_, by simp, by simp⟩
        rintro t ⟨⟩
        unfold msgControl
        rw [hex2l_eq]
        exact .code hm ho (by unfold objectCode; rw [if_neg n2]; exact hk)
      rename_i hk
      have hk := hcode (Classical.not_not.mp hk)
      split
      · rename_i hl
        refine ⟨_, _, rfl, ?_, by simp, by simp⟩
        rintro t ⟨⟩
        exact .lengths hm' ho hk hl
      rename_i hl
      split
      · rename_i hl'
        refine ⟨_, _, rfl, ?_, by simp, by simp⟩
        rintro t ⟨⟩
        exact .length hm' ho hk (Classical.not_not.mp hl) hl'
      · rename_i hl'
        exact tailOk hm ho hk (.inr ⟨Classical.not_not.mp hl, Classical.not_not.mp hl'⟩)
    · rename_i h
      have h : ¬ (f.type = 3 ∨ f.type = 4) := h
      refine ⟨_, _, rfl, ?_, by simp, by simp⟩
      rintro t ⟨⟩
      exact .kind _ (by simp; omega) (fmtHexIntL_low f.type)
  obtain ⟨r, m, h1, h2⟩ := key
  exact ⟨r, m, h1, by rw [← verifyE_mute, h1, silent_ok], h2⟩

example : ∃ t, frameVerifyE { frameNew 3 with control := 8 } = .ok (-1, some t) ∧ t = cs! "Invalid checksum (0x00 != 0x08)" :=
  ⟨_, by decide +kernel, rfl⟩
example : frameVerifyE { frameNew 3 with type := -2 } = .ok (-1, some (cs! "Unknown frame type 0xfffffffe")) := by decide +kernel

/-! ### application layer -/

/-- C119 (`mbus_frame_data_parse`): the call stores a message exactly if it fails, and the message says why the data are no proper response:
in a list of records, all records before the one it complains about are complete. -/
theorem C119_data_parse (f : Frame) (x : FrameData) (hs : f.dataSize ≤ 252) (r : Int) (y : FrameData) (h : frameDataParse f x = .ok (r, y)) :
    ∃ m, frameDataParseE f x = .ok (r, y, m) ∧
      ((r = 0 ∧ m = none) ∨ (r = -1 ∧ ∃ t, m = some t ∧ NotParsed f.control f.ci (payload f) t)) := by
  have key : ∀ r y m, frameDataParseE f x = .ok (r, y, m) →
      ((r = 0 ∧ m = none) ∨ (r = -1 ∧ ∃ t, m = some t ∧ NotParsed f.control f.ci (payload f) t)) := by
    intro r y m h
    have hlen : (payload f).length = f.dataSize := by unfold payload; simp; omega
    have hne : f.dataSize ≠ 0 → payload f ≠ [] := by intro k e; rw [e] at hlen; exact k hlen.symm
    unfold frameDataParseE at h
    split at h
    · rename_i hdir
      have hdir : f.control &&& 0x40 = 0 := hdir
      split at h
      · simp only at h
        split at h
        · obtain ⟨e, _, h⟩ := bind_eq_ok.mp h
          cases h
          exact .inl ⟨rfl, rfl⟩
        · cases h
          exact .inl ⟨rfl, rfl⟩
      split at h
      · rename_i hci
        split at h
        · rename_i h0
          cases h
          exact .inr ⟨rfl, _, rfl, .nothing hdir (by simp [hci]) (List.eq_nil_of_length_eq_zero (by omega))⟩
        rename_i h0
        obtain ⟨q, h1, h⟩ := bind_eq_ok.mp h
        obtain ⟨r1, y1, m1⟩ := q
        cases h
        unfold fixedParseE at h1
        split at h1
        · rename_i h16
          cases h1
          exact .inr ⟨rfl, _, rfl, .fixed hdir hci (hne h0) (by omega)⟩
        rename_i h16
        obtain ⟨q, h2, h1⟩ := bind_eq_ok.mp h1
        obtain ⟨r2, y2⟩ := q
        cases h1
        refine .inl ⟨?_, rfl⟩
        unfold fixedParse at h2
        rw [if_neg h16] at h2
        iterate 16
          obtain ⟨_, _, h2⟩ := bind_eq_ok.mp h2
        cases h2
        rfl
      split at h
      · rename_i hci
        split at h
        · rename_i h0
          cases h
          exact .inr ⟨rfl, _, rfl, .nothing hdir (by simp [hci]) (List.eq_nil_of_length_eq_zero (by omega))⟩
        rename_i h0
        obtain ⟨q, h1, h⟩ := bind_eq_ok.mp h
        obtain ⟨r1, y1, m1⟩ := q
        cases h
        unfold variableParseE at h1
        simp only at h1
        split at h1
        · rename_i h12
          cases h1
          exact .inr ⟨rfl, _, rfl, .header hdir hci (hne h0) (by omega)⟩
        rename_i h12
        obtain ⟨hh, _, h1⟩ := bind_eq_ok.mp h1
        rcases varLoopE_said f.data f.dataSize hs _ _ _ _ _ _ h1 with k | ⟨k1, t, done, q, rs, k2, k3, k4, k5, k6⟩
        · exact .inl k
        · exact .inr ⟨k1, t, k2, .record done q rs t hdir hci (by omega) k3 k4 k5 k6⟩
      · rename_i c1 c2 c3
        cases h
        refine .inr ⟨rfl, _, rfl, ?_⟩
        rw [hex2l_eq]
        exact .kind hdir (by simp [c1, c2, c3])
    · rename_i hdir
      cases h
      exact .inr ⟨rfl, _, rfl, .direction hdir⟩
  rw [← frameDataParseE_mute] at h
  cases h1 : frameDataParseE f x with
  | error e => rw [h1] at h; cases h
  | ok q =>
    obtain ⟨a, b, c⟩ := q
    rw [h1, silent2_ok] at h
    cases h
    exact ⟨c, rfl, key _ _ _ h1⟩

/-- a record that is cut off behind a complete one -/
example : NotParsed 0x08 0x72 (hdr ++ [0x01, 0x13, 7, 0x04, 0x13, 1, 2]) (cs! "Premature end of record at data.") := by
  refine .record [0x01, 0x13, 7] [0x04, 0x13, 1, 2] [.value 0x01 [] 0x13 [] [] [7]] _ (by decide) rfl (by decide) rfl ?_ (by simp) ?_
  · exact .cons (dif := 0x01) (difes := []) (vif := 0x13) (text := []) (vifes := []) (data := [7]) (bs := []) ⟨by decide, by decide, by decide, by decide, by decide, by decide, by decide, by decide, fun _ => rfl, rfl⟩ .nil
  · exact .endData 0x04 [] 0x13 [] [] [1, 2] ⟨by decide, by decide, by decide, by decide, by decide⟩ ⟨by decide, fun _ => rfl⟩ (by decide) (by decide) (by rw [if_neg (by decide)]; decide)
example : (frameDataParseE (rsp 0x72 (hdr ++ [0x01, 0x13, 7, 0x04, 0x13, 1, 2])) FrameData.new).toOption.map (fun q => (q.1, q.2.2)) =
    some (-1, some (cs! "Premature end of record at data.")) := by decide +kernel
/-- eleven DIFEs -/
example : Broken (List.replicate 11 0x84 ++ [4, 0x13]) (cs! "Too many DIFE.") := .manyDife _ _ (by decide) (by decide)

/-- C119 (`mbus_frame_get_secondary_address`): no address, and then the message: no variable data, or why the data are no proper response. -/
theorem C119_secondary_address (f : Frame) (hs : f.dataSize ≤ 252) (o : Option (List Byte)) (h : getSecondaryAddress f = .ok o) :
    ∃ m, getSecondaryAddressE f = .ok (o, m) ∧ (o = none ↔ m ≠ none) ∧
      ∀ t, m = some t → (f.ci ≠ 0x72 ∧ t = cs! "Non-variable data response (can't get secondary address from response).") ∨
        (f.ci = 0x72 ∧ NotParsed f.control f.ci (payload f) t) := by
  unfold getSecondaryAddress at h
  unfold getSecondaryAddressE
  split at h
  · rename_i hci
    cases h
    rw [if_pos hci]
    exact ⟨_, rfl, by simp, by rintro t ⟨⟩; exact .inl ⟨hci, rfl⟩⟩
  · rename_i hci
    rw [if_neg hci]
    obtain ⟨q, h1, h⟩ := bind_eq_ok.mp h
    obtain ⟨r, x⟩ := q
    obtain ⟨m, k1, k2⟩ := C119_data_parse f FrameData.new hs r x h1
    rw [k1]
    simp only [ok_bind]
    rcases k2 with ⟨rfl, rfl⟩ | ⟨rfl, t, rfl, k3⟩
    · simp only [show ¬ ((0 : Int) = -1) by decide, if_false] at h ⊢
      obtain ⟨a, ha, h⟩ := bind_eq_ok.mp h
      obtain ⟨b, hb, h⟩ := bind_eq_ok.mp h
      obtain ⟨c, hc, h⟩ := bind_eq_ok.mp h
      cases h
      rw [ha, ok_bind, hb, ok_bind, hc, ok_bind]
      exact ⟨_, rfl, by simp, by simp⟩
    · simp only [if_true] at h ⊢
      cases h
      exact ⟨_, rfl, by simp, by rintro t' ⟨⟩; exact .inr ⟨Classical.not_not.mp hci, k3⟩⟩

/-- C119 (`mbus_frame_select_secondary_pack`): the message is stored exactly for an invalid address. -/
theorem C119_select (f : Frame) (s : List Byte) (r : Int) (g : Frame) (h : selectPack f s = .ok (r, g)) :
    ∃ m, selectPackE f s = .ok (r, g, m) ∧ (m ≠ none ↔ ¬ (s.length = 16 ∧ ∀ c ∈ s, IsHex c)) ∧ (m ≠ none → r = -1) ∧
      ∀ t, m = some t → t = cs! "mbus_frame_select_secondary_pack: address is invalid." := by
  rw [← (C52_address_validation s 0).1]
  unfold selectPackE
  split
  · rename_i hb
    unfold selectPack at h
    rw [if_pos hb] at h
    cases h
    exact ⟨_, rfl, by simp [hb], by simp, by simp⟩
  · rename_i hb
    rw [h]
    exact ⟨none, rfl, by simpa using hb, by simp, by simp⟩

/-! ### transports -/

/-- C119 (TCP, receiving): every result but OK has its own message; OK stores none. -/
theorem C119_tcp_recv (es : List Ev) (f : Frame) :
    ∃ out m, tcpRecvE es f = .ok (out, m) ∧ tcpRecv es f = .ok out ∧
      ((out.code = RECV_OK ∧ m = none) ∨
       (out.code = RECV_TIMEOUT ∧ m = some (cs! "M-Bus tcp transport layer response timeout has been reached.")) ∨
       (out.code = RECV_ERROR ∧ m = some (cs! "M-Bus tcp transport layer failed to read data.")) ∨
       (out.code = RECV_RESET ∧ m = some (cs! "M-Bus tcp transport layer connection closed by remote host.")) ∨
       (out.code = RECV_INVALID ∧ m = some (cs! "M-Bus layer failed to parse data."))) := by
  obtain ⟨out, m, h1, h2⟩ := tcpLoopE_says (evWeight es) es [] f (Nat.le_refl _) (.inl rfl)
  have h1 : tcpRecvE es f = .ok (out, m) := h1
  refine ⟨out, m, h1, ?_, h2⟩
  have := tcpLoopE_mute es f (List.replicate PACKET_BUFF_SIZE 0) 0 0 none
  unfold tcpRecvE at h1
  rw [h1, silent_ok] at this
  exact this.symm

example : tcpRecvE [.data [0x42]] (frameNew 4) = .ok (⟨RECV_INVALID, frameNew 4, [], some [0x42]⟩, some (cs! "M-Bus layer failed to parse data.")) := by
  obtain ⟨out, m, h1, h2, h3⟩ := C119_tcp_recv [.data [0x42]] (frameNew 4)
  have : tcpRecv [.data [0x42]] (frameNew 4) = .ok ⟨RECV_INVALID, frameNew 4, [], some [0x42]⟩ := by decide +kernel
  rw [this] at h2
  cases h2
  rcases h3 with ⟨k, _⟩ | ⟨k, _⟩ | ⟨k, _⟩ | ⟨k, _⟩ | ⟨_, k⟩
  · simp [RECV_OK, RECV_INVALID] at k
  · simp [RECV_TIMEOUT, RECV_INVALID] at k
  · simp [RECV_ERROR, RECV_INVALID] at k
  · simp [RECV_RESET, RECV_INVALID] at k
  · rw [h1, k]

/-- C119 (serial line, receiving): the transport itself stores no message.  A failed read and a telegram that stays incomplete leave the old
message in place; bytes that are no telegram are described as by `mbus_parse`; a silent line is described as `mbus_parse` describes an empty
buffer. -/
theorem C119_serial_recv_partial (es : List Ev) (f : Frame) :
    ∃ out m, serialRecvE true es f = .ok (out, m) ∧ serialRecv true es f = .ok out ∧
      ((out.code = RECV_OK ∧ m = none) ∨
       (out.code = RECV_TIMEOUT ∧ m = some (cs! "Got null pointer to frame, data or zero data_size.")) ∨
       (out.code = RECV_ERROR ∧ m = none) ∨
       (out.code = RECV_INVALID ∧ ∃ bs, out.event = some bs ∧ ∀ t, m = some t ↔ Wrong bs t)) := by
  obtain ⟨out, m, h1, h2⟩ := serialLoopE_says (evWeight es + 3) es [] f 0 (Nat.le_refl _) (.inl rfl) (fun _ => rfl)
  have h1 : serialRecvE true es f = .ok (out, m) := h1
  refine ⟨out, m, h1, ?_, ?_⟩
  · have := serialLoopE_mute (evWeight es + 3) es f (List.replicate PACKET_BUFF_SIZE 0) 0 0 0 none (Nat.le_refl _)
    have h1 : serialLoopE es f (List.replicate PACKET_BUFF_SIZE 0) 0 0 0 none = .ok (out, m) := h1
    rw [h1, silent_ok] at this
    exact this.symm
  · rcases h2 with h | h | h | ⟨h, bs, k1, k2⟩
    · exact .inl h
    · exact .inr (.inl h)
    · exact .inr (.inr (.inl h))
    · exact .inr (.inr (.inr ⟨h, bs, k1, fun t => by rw [k2]; exact says_iff bs t⟩))

set_option linter.unusedSimpArgs false in
/-- C119 is violated on the serial line: after a failed read, and after a telegram that stayed incomplete, `mbus_error_str()` still shows
the old message. -/
theorem C119_serial_violation (f : Frame) :
    (∃ out, serialRecvE true [.err] f = .ok (out, none) ∧ out.code = RECV_ERROR) ∧
    (∃ out, serialRecvE true [.data [0x68], .data [], .data [], .data []] f = .ok (out, none) ∧ out.code = RECV_INVALID) := by
  constructor
  · obtain ⟨out, m, h1, h2, h3⟩ := C119_serial_recv_partial [.err] f
    have hb : serialRecv true [.err] f = .ok ⟨RECV_ERROR, f, [], none⟩ := serial_bad (bs := []) (.inl rfl) f 0 .err (by simp) []
    rw [hb] at h2
    cases h2
    refine ⟨⟨RECV_ERROR, f, [], none⟩, ?_, rfl⟩
    rcases h3 with ⟨k, _⟩ | ⟨k, _⟩ | ⟨_, k⟩ | ⟨k, _⟩
    · simp [RECV_OK, RECV_ERROR, RECV_TIMEOUT, RECV_INVALID] at k
    · simp [RECV_OK, RECV_ERROR, RECV_TIMEOUT, RECV_INVALID] at k
    · rw [h1, k]
    · simp [RECV_OK, RECV_ERROR, RECV_TIMEOUT, RECV_INVALID] at k
  · obtain ⟨out, m, h1, h2, h3⟩ := C119_serial_recv_partial [.data [0x68], .data [], .data [], .data []] f
    obtain ⟨f', hb⟩ := C41_serial_third_empty_invalid [.data [0x68], .data [], .data [], .data []] 0 [0x68]
      [3, 3, 0x68, 8, 1, 0x72, 0x7B, 0x16] [] (.data 8 1 0x72 []) f (by decide) (by decide) (by simp) (by simp) (by omega) (by simp)
      (Feeds.whole [0x68] (by simp) (.done _))
    rw [hb] at h2
    cases h2
    refine ⟨⟨RECV_INVALID, f', [], some [0x68]⟩, ?_, rfl⟩
    rcases h3 with ⟨k, _⟩ | ⟨k, _⟩ | ⟨k, _⟩ | ⟨_, bs, k1, k2⟩
    · simp [RECV_OK, RECV_ERROR, RECV_TIMEOUT, RECV_INVALID] at k
    · simp [RECV_OK, RECV_ERROR, RECV_TIMEOUT, RECV_INVALID] at k
    · simp [RECV_OK, RECV_ERROR, RECV_TIMEOUT, RECV_INVALID] at k
    · cases k1
      rw [h1]
      cases m with
      | none => rfl
      | some t => exact absurd ((k2 t).mp rfl) ((C119_wrong_iff [0x68]).mpr ⟨frameNew 4, 2, _, rfl, by decide⟩ t)

set_option linter.unusedSimpArgs false in
/-- C119 is violated on the serial line: when no meter answers, the message speaks of a null pointer. -/
theorem C119_serial_timeout_violation (f : Frame) :
    ∃ out, serialRecvE true [] f = .ok (out, some (cs! "Got null pointer to frame, data or zero data_size.")) ∧ out.code = RECV_TIMEOUT := by
  obtain ⟨out, m, h1, h2, h3⟩ := C119_serial_recv_partial [] f
  obtain ⟨f', hb⟩ := C41_serial_silent_timeout [] f (.inl rfl)
  rw [hb] at h2
  cases h2
  refine ⟨⟨RECV_TIMEOUT, f', [], none⟩, ?_, rfl⟩
  rcases h3 with ⟨k, _⟩ | ⟨_, k⟩ | ⟨k, _⟩ | ⟨k, _⟩
  · simp [RECV_OK, RECV_ERROR, RECV_TIMEOUT, RECV_INVALID] at k
  · rw [h1, k]
    rfl
  · simp [RECV_OK, RECV_ERROR, RECV_TIMEOUT, RECV_INVALID] at k
  · simp [RECV_OK, RECV_ERROR, RECV_TIMEOUT, RECV_INVALID] at k

/-- the text of a message made in a local array of 128 characters -/
def Cut (t s : List Byte) : Prop := t = s.take 127

/-- C119 (TCP, sending): a message is stored exactly if the call fails because `write` did not take the whole frame; it tells what `write`
returned.  (No other failure is possible: C43.) -/
theorem C119_tcp_send (junk : Nat → Byte) (wret : Nat → Int) (f : Frame) (r : Int) (g : Frame) (w : Option (List Byte))
    (h : sendFrame true junk wret f = .ok (r, g, w)) :
    ∃ m bs, tcpSendE junk wret f = .ok (r, g, w, m) ∧ w = some bs ∧
      ((r = 0 ∧ wret bs.length = bs.length ∧ m = none) ∨
       (r = -1 ∧ wret bs.length ≠ bs.length ∧ ∃ t, m = some t ∧
          Cut t (cs! "mbus_tcp_send_frame: Failed to write frame to socket (ret = " ++ fmtInt (wret bs.length) ++ cs! ")\n"))) := by
  unfold sendFrame at h
  rw [if_neg (by simp)] at h
  unfold tcpSendE
  obtain ⟨q, h1, h⟩ := bind_eq_ok.mp h
  have hb : ((List.range PACKET_BUFF_SIZE).map junk).length = 2048 := by simp [PACKET_BUFF_SIZE]
  have hd : f.type = 4 → f.dataSize ≤ 252 := by
    intro ht
    apply Classical.byContradiction
    intro hn
    rw [C08_pack_oversized_payload f _ _ ht (by omega)] at h1
    cases h1
  by_cases ht : f.type = 1 ∨ f.type = 2 ∨ f.type = 3 ∨ f.type = 4
  · have he := framePack_eq f ((List.range PACKET_BUFF_SIZE).map junk) PACKET_BUFF_SIZE (by rw [hb]; decide) hd ht
    have hl := packBytes_length f hd ht
    have hs : packLen f ≤ 2048 := by
      unfold packLen
      rcases ht with k | k | k | k <;> simp [k]
      have := hd k; omega
    rw [if_neg (by show ¬ (2048 < _); omega)] at he
    rw [he] at h1 ⊢
    cases h1
    simp only [ok_bind, Int.toNat_natCast] at h ⊢
    have n1 : ¬ ((packLen f : Int) = -1) := by omega
    have n2 : ¬ ((packLen f : Int) < 0) := by omega
    have htk : (packBytes f ++ ((List.range PACKET_BUFF_SIZE).map junk).drop (packLen f)).take (packLen f) = packBytes f := by
      rw [← hl]; simp
    rw [htk] at h ⊢
    simp only [n1, n2, if_false] at h ⊢
    split at h
    · rename_i h4
      cases h
      rw [if_pos h4]
      exact ⟨_, _, rfl, rfl, .inl ⟨rfl, by rw [hl]; exact h4, rfl⟩⟩
    · rename_i h4
      cases h
      rw [if_neg h4]
      exact ⟨_, _, rfl, rfl, .inr ⟨rfl, by rw [hl]; exact h4, _, rfl, by rw [hl]; rfl⟩⟩
  · rw [framePack_unknown f _ _ ht] at h1
    cases h1
    simp at h

/-- C119 (TCP, connecting): a message is stored exactly if the call fails: the name was not resolved (with the reason the system gives), or no
address of it could be connected (with host and port). -/
theorem C119_tcp_connect (h : Hnd) (host : List Byte) (port : Nat) (hp : port < 65536) (gai : Bool) (why : List Byte)
    (rs : List (Option (Int × Bool))) (p : Proc) :
    ∃ m, tcpConnectE h host port gai why rs p = (tcpConnect h gai rs p, m) ∧
      (((tcpConnect h gai rs p).1 = 0 ∧ m = none) ∨
       ((tcpConnect h gai rs p).1 = -1 ∧ gai = false ∧ ∃ t, m = some t ∧ Cut t (cs! "mbus_tcp_connect: getaddrinfo: " ++ why)) ∨
       ((tcpConnect h gai rs p).1 = -1 ∧ gai = true ∧
          ∃ t, m = some t ∧ Cut t (cs! "mbus_tcp_connect: Failed to establish connection to " ++ host ++ cs! ":" ++ fmtInt port))) := by
  unfold tcpConnectE tcpConnect
  cases gai with
  | false => exact ⟨_, rfl, .inr (.inl ⟨rfl, rfl, _, rfl, rfl⟩)⟩
  | true =>
    simp only [if_true]
    split
    · exact ⟨none, rfl, .inl ⟨rfl, rfl⟩⟩
    · exact ⟨_, rfl, .inr (.inr ⟨rfl, trivial, _, rfl, by unfold Cut; rw [C86_port port hp]⟩)⟩

/-! ### XML -/

theorem chainXmlE_mute (junk : Nat → Nat → Byte) (ts : List Telegram) (x : FrameData) (freed : Bool) (cnt frameCnt : Int) (b : XBuf) :
    silent (chainXmlE junk ts x freed cnt frameCnt b) = chainXml junk ts x freed cnt frameCnt b := by
  induction ts generalizing x freed cnt frameCnt b with
  | nil =>
    unfold chainXmlE chainXml
    cases b.put (cs! "</MBusData>\n") <;> rfl
  | cons t ts ih =>
    obtain ⟨f, stamp⟩ := t
    unfold chainXmlE chainXml
    rw [← frameDataParseE_mute]
    cases frameDataParseE f x with
    | error e => rfl
    | ok q =>
      obtain ⟨r, y, m⟩ := q
      simp only [ok_bind, silent2_ok]
      split
      · rfl
      split
      · rfl
      cases recordsXml junk frameCnt (y.var.records.map (·, stamp)) cnt b with
      | error e => rfl
      | ok q =>
        obtain ⟨b, cnt⟩ := q
        simp only [ok_bind]
        cases int32 (frameCnt + 1) with
        | error e => rfl
        | ok n => simp only [ok_bind]; exact ih _ _ _ _ _

theorem dataParse_type (f : Frame) (x : FrameData) (y : FrameData) (m : Said) (h : frameDataParseE f x = .ok (0, y, m)) :
    y.type = DATA_ERROR ∨ y.type = DATA_FIXED ∨ y.type = DATA_VARIABLE := by
  unfold frameDataParseE at h
  split at h
  · split at h
    · simp only at h
      split at h
      · obtain ⟨e, _, h⟩ := bind_eq_ok.mp h
        cases h
        exact .inl rfl
      · cases h
        exact .inl rfl
    split at h
    · split at h
      · cases h
      · obtain ⟨⟨_, _, _⟩, _, h⟩ := bind_eq_ok.mp h
        simp only [Except.ok.injEq, Prod.mk.injEq] at h
        obtain ⟨_, rfl, _⟩ := h
        exact .inr (.inl rfl)
    split at h
    · split at h
      · cases h
      · obtain ⟨⟨_, _, _⟩, _, h⟩ := bind_eq_ok.mp h
        simp only [Except.ok.injEq, Prod.mk.injEq] at h
        obtain ⟨_, rfl, _⟩ := h
        exact .inr (.inr rfl)
    · cases h
  · cases h

/-- the application data of telegram `t` are no proper response -/
def NoResponse (t : Telegram) : Prop := ∃ m, NotParsed t.1.control t.1.ci (payload t.1) m

theorem chainXmlE_says (junk : Nat → Nat → Byte) (ts : List Telegram) (hs : ∀ t ∈ ts, t.1.dataSize ≤ 252) (x : FrameData) (freed : Bool)
    (cnt frameCnt : Int) (b : XBuf) (o : XmlOut) (m : Said) (h : chainXmlE junk ts x freed cnt frameCnt b = .ok (o, m)) :
    (o.text ≠ none ∧ m = none) ∨ (o.text = none ∧ m = some (cs! "M-bus variable data parse error.") ∧ ∃ t ∈ ts, NoResponse t) := by
  induction ts generalizing x freed cnt frameCnt b with
  | nil =>
    unfold chainXmlE at h
    obtain ⟨b', _, h⟩ := bind_eq_ok.mp h
    cases h
    exact .inl ⟨by simp, rfl⟩
  | cons t ts ih =>
    obtain ⟨f, stamp⟩ := t
    unfold chainXmlE at h
    obtain ⟨q, h1, h⟩ := bind_eq_ok.mp h
    obtain ⟨r, y, m1⟩ := q
    have hm : frameDataParse f x = .ok (r, y) := by rw [← frameDataParseE_mute, h1, silent2_ok]
    obtain ⟨m2, k1, k2⟩ := C119_data_parse f x (hs (f, stamp) (by simp)) r y hm
    simp only at h
    split at h
    · rename_i hr
      cases h
      refine .inr ⟨rfl, rfl, (f, stamp), by simp, ?_⟩
      rcases k2 with ⟨k, _⟩ | ⟨_, t, _, k⟩
      · omega
      · exact ⟨t, k⟩
    split at h
    · cases h
    obtain ⟨q, _, h⟩ := bind_eq_ok.mp h
    obtain ⟨b1, c1⟩ := q
    obtain ⟨n, _, h⟩ := bind_eq_ok.mp h
    rcases ih (fun t ht => hs t (by simp [ht])) _ _ _ _ _ h with k | ⟨a, b, t, c, d⟩
    · exact .inl k
    · exact .inr ⟨a, b, t, by simp [c], d⟩

/-- C119 (`mbus_frame_xml`): a message is stored exactly if there is no document.  It says whether the first telegram or a later one is no
proper response, but not why: the more precise message of `mbus_frame_data_parse` is replaced. -/
theorem C119_frame_xml (junk0 : Nat → Byte) (junk : Nat → Nat → Byte) (t : Telegram) (ts : List Telegram) (hs : ∀ u ∈ t :: ts, u.1.dataSize ≤ 252)
    (o : XmlOut) (h : frameXml junk0 junk t ts = .ok o) :
    ∃ m, frameXmlE junk0 junk t ts = .ok (o, m) ∧
      ((o.text ≠ none ∧ m = none) ∨
       (o.text = none ∧ m = some (cs! "M-bus data parse error.") ∧ NoResponse t) ∨
       (o.text = none ∧ m = some (cs! "M-bus variable data parse error.") ∧ ∃ u ∈ ts, NoResponse u)) := by
  have he : silent (frameXmlE junk0 junk t ts) = frameXml junk0 junk t ts := by
    unfold frameXmlE frameXml
    rw [← frameDataParseE_mute]
    cases frameDataParseE t.1 FrameData.new with
    | error e => rfl
    | ok q =>
      obtain ⟨r, y, m⟩ := q
      simp only [ok_bind, silent2_ok]
      split
      · rfl
      split
      · cases errorXml junk0 y.error <;> rfl
      split
      · cases fixedXml junk0 y.fix <;> rfl
      split
      · simp only [← chainXmlE_mute]
        have mb : ∀ {α β δ : Type} (x : C δ) (k : δ → C (α × β)), silent (x >>= k) = x >>= fun d => silent (k d) := by
          intro α β δ x k; cases x <;> rfl
        simp only [mb]
      · rfl
  cases h1 : frameXmlE junk0 junk t ts with
  | error e => rw [← he, h1] at h; cases h
  | ok q =>
    obtain ⟨o', m⟩ := q
    rw [← he, h1, silent_ok] at h
    cases h
    refine ⟨m, rfl, ?_⟩
    unfold frameXmlE at h1
    obtain ⟨q, h2, h1⟩ := bind_eq_ok.mp h1
    obtain ⟨r, y, m1⟩ := q
    have hm : frameDataParse t.1 FrameData.new = .ok (r, y) := by rw [← frameDataParseE_mute, h2, silent2_ok]
    obtain ⟨m2, k1, k2⟩ := C119_data_parse t.1 _ (hs t (by simp)) r y hm
    simp only at h1
    split at h1
    · rename_i hr
      cases h1
      refine .inr (.inl ⟨rfl, rfl, ?_⟩)
      rcases k2 with ⟨k, _⟩ | ⟨_, t, _, k⟩
      · omega
      · exact ⟨t, k⟩
    rename_i hr
    split at h1
    · obtain ⟨w, _, h1⟩ := bind_eq_ok.mp h1
      cases h1
      exact .inl ⟨by simp, rfl⟩
    split at h1
    · obtain ⟨w, _, h1⟩ := bind_eq_ok.mp h1
      cases h1
      exact .inl ⟨by simp, rfl⟩
    split at h1
    · obtain ⟨_, _, h1⟩ := bind_eq_ok.mp h1
      obtain ⟨_, _, h1⟩ := bind_eq_ok.mp h1
      obtain ⟨_, _, h1⟩ := bind_eq_ok.mp h1
      obtain ⟨_, _, h1⟩ := bind_eq_ok.mp h1
      obtain ⟨_, _, h1⟩ := bind_eq_ok.mp h1
      obtain ⟨_, _, h1⟩ := bind_eq_ok.mp h1
      rcases chainXmlE_says junk ts (fun u hu => hs u (by simp [hu])) _ _ _ _ _ _ _ h1 with k | k
      · exact .inl k
      · exact .inr (.inr k)
    · rename_i n1 n2 n3
      rcases k2 with ⟨rfl, _⟩ | ⟨k, _⟩
      · rcases dataParse_type _ _ _ _ h2 with k | k | k
        · exact absurd k n1
        · exact absurd k n2
        · exact absurd k n3
      · exact absurd k hr

/-! Direct instances of the theorems above. -/

example := (C119_read_back (List.replicate 512 7) List.length_replicate).2 (cs! "Invalid stop") (by decide) (by decide)
/-- a telegram with a wrong checksum -/
example := C119_parse_error_str (frameNew 4) [0x68, 3, 3, 0x68, 8, 1, 0x72, 0x7C, 0x16] (List.replicate 512 0) List.length_replicate _ _ (by decide) rfl
example := C119_secondary_address (rsp 0x73 []) (by decide) none (by decide +kernel)
example := C119_select (frameNew 4) (cs! "1234567824400107") _ _ rfl
example := C119_select (frameNew 4) (cs! "123456782440010G") _ _ rfl
/-- only three bytes are taken -/
example : ∃ g w m, tcpSendE (fun _ => 0) (fun _ => 3) { frameNew 2 with control := 0x5B, address := 5 } = .ok (-1, g, w, m) ∧ m ≠ none := by
  have hs : (match sendFrame true (fun _ => 0) (fun _ => 3) { frameNew 2 with control := 0x5B, address := 5 } with
      | .ok (r, _) => decide (r = -1)
      | .error _ => false) = true := by decide +kernel
  split at hs
  · next r q e =>
    obtain ⟨g, w⟩ := q
    rw [of_decide_eq_true hs] at e
    obtain ⟨m, bs, h1, _, h3⟩ := C119_tcp_send _ _ _ _ _ _ e
    refine ⟨_, _, m, h1, ?_⟩
    rcases h3 with ⟨h, _⟩ | ⟨_, _, t, h, _⟩
    · cases h
    · rw [h]; simp
  · cases hs
example := C119_tcp_connect (sampleHnd false) (cs! "gateway") 10001 (by decide) true [] [none, some (4, false)] sampleProc

end Mbus
