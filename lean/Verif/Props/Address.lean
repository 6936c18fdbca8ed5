import Verif.Lemmas.Address
/-
Property theorems C50-C52 (addresses).  Statements use the model functions and the specification in Verif/Spec/Address.lean.
-/
namespace Mbus
open Spec

/-! ### C52 -/

/-- C52: the validators accept exactly the texts of 16 hexadecimal digits and the integers 0..255. -/
theorem C52_address_validation (s : List Byte) (v : Int) :
    (isSecondaryAddress s = true ↔ s.length = 16 ∧ ∀ c ∈ s, IsHex c) ∧
    (isPrimaryAddress v = true ↔ 0 ≤ v ∧ v ≤ 255) := by
  constructor
  · unfold isSecondaryAddress
    rw [Bool.and_eq_true, decide_eq_true_iff, List.all_eq_true]
    exact and_congr_right fun _ => forall_congr' fun c => imp_congr_right fun _ => isXDigit_iff c
  · unfold isPrimaryAddress
    rw [Bool.and_eq_true, decide_eq_true_iff, decide_eq_true_iff]

example : isSecondaryAddress (cs! "1449100110570106") = true ∧ isSecondaryAddress (cs! "144910011057010G") = false ∧
    isSecondaryAddress (cs! "14491001105701060") = false ∧ isPrimaryAddress 255 = true ∧ isPrimaryAddress 256 = false ∧
    isPrimaryAddress (-1) = false := by decide

/-! ### C51 -/

theorem getAddr_eq (f : Frame) (hs : f.dataSize ≤ 252) (s : List Byte) (h : getSecondaryAddress f = .ok (some s)) :
    f.ci = 0x72 ∧ f.control &&& 0x40 = 0 ∧ 12 ≤ f.dataSize ∧ s = addressText ((payload f).take 8) := by
  unfold getSecondaryAddress at h
  by_cases hci : f.ci = 0x72
  · rw [if_neg (by simpa using hci)] at h
    have hc := frameDataParse_cases f FrameData.new
    by_cases hd : f.control &&& 0x40 = 0
    · rw [hc.2.2 hd hci] at h
      by_cases h0 : f.dataSize = 0
      · rw [if_pos h0] at h; simp at h
      · rw [if_neg h0] at h
        cases hv : variableParse f FrameData.new.var with
        | error e => rw [hv] at h; simp at h
        | ok q =>
          rw [hv] at h
          rcases variableParse_code _ _ q.1 q.2 hv with hq | hq
          · obtain ⟨q1, q2⟩ := q
            simp only at hq
            subst hq
            simp only [ok_bind, show ¬ ((0:Int) = -1) by decide, if_false] at h
            obtain ⟨h12, hh, _⟩ := variableParse_sound f _ _ hs hv
            refine ⟨hci, hd, h12, ?_⟩
            obtain ⟨v, hv1, hv2⟩ := C15_hex_text q2.header.idBcd.bytes 4 (by omega) (by omega) (by simp)
            rw [hv1] at h
            generalize q2.header = H at h hh hv1 hv2
            obtain ⟨⟨i, hi⟩, ⟨m, hm⟩, ver, med, acc, st, ⟨g, hg⟩⟩ := H
            match i, hi, m, hm, g, hg with
            | [i0, i1, i2, i3], _, [m0, m1], _, [g0, g1], _ =>
              simp only [Buf.rd, rd, List.getElem?_cons_zero, List.getElem?_cons_succ, ok_bind, Except.ok.injEq, Option.some.injEq] at h
              simp only [HeaderIs, List.cons_append, List.nil_append] at hh
              have h8 : (payload f).take 8 = [i0, i1, i2, i3, m0, m1, ver, med] := by
                have : (payload f).take 8 = ((payload f).take 12).take 8 := by rw [List.take_take]; rfl
                rw [this, ← hh]; rfl
              rw [h8, ← h]
              simp only [Int.toNat_natCast] at hv2 ⊢
              simp only [show 2 * 4 = 8 from rfl] at hv2
              rw [hv2]
              simp only [List.take_succ_cons, List.take_nil, List.reverse_cons, List.reverse_nil, List.nil_append,
                List.cons_append, List.flatMap_cons, List.flatMap_nil, hexPair_eq]
              simp [addressText, swapId]
          · obtain ⟨q1, q2⟩ := q
            simp only at hq
            subst hq
            simp at h
    · rw [hc.1 hd] at h; simp at h
  · rw [if_pos (by simpa using hci)] at h; simp at h

theorem hexPair_inj (a b : Byte) (h : hexPair a = hexPair b) : a = b := by
  have key : ∀ a : Byte, UInt8.ofNat (16 * digitVal ((hexPair a).getD 0 0) + digitVal ((hexPair a).getD 1 0)) = a := by
    apply forall_byte; decide +kernel
  rw [← key a, ← key b, h]

theorem hexPair_val (a : Byte) : UInt8.ofNat (16 * digitVal ((hexPair a).getD 0 0) + digitVal ((hexPair a).getD 1 0)) = a := by
  revert a; apply forall_byte; decide +kernel

theorem hexBytes_text (bs : List Byte) : hexBytes (bs.flatMap hexPair) = bs := by
  induction bs with
  | nil => rfl
  | cons b bs ih =>
    have := hexPair_val b
    simp only [hexPair, List.getD_cons_zero, List.getD_cons_succ] at this
    simp only [List.flatMap_cons, hexPair, List.cons_append, List.nil_append, hexBytes]
    rw [ih, this]

theorem swapId_swapId (bs : List Byte) (h : 4 ≤ bs.length) : swapId (swapId bs) = bs := by
  unfold swapId
  have hl : (bs.take 4).reverse.length = 4 := by simp; omega
  rw [List.take_left' hl, List.drop_left' hl, List.reverse_reverse, List.take_append_drop]

theorem addressBytes_text (bs : List Byte) (h : 4 ≤ bs.length) : addressBytes (addressText bs) = bs := by
  unfold addressBytes addressText
  rw [hexBytes_text, swapId_swapId bs h]

theorem addressText_length (bs : List Byte) (h : bs.length = 8) : (addressText bs).length = 16 := by
  unfold addressText swapId
  match bs, h with
  | [a, b, c, d, e, f, g, i], _ => simp [hexPair]

theorem addressText_upper (bs : List Byte) : ∀ c ∈ addressText bs, c ∈ hexUpper := by
  intro c hc
  unfold addressText at hc
  obtain ⟨b, _, hc⟩ := List.mem_flatMap.mp hc
  have : ∀ b : Byte, ∀ c ∈ hexPair b, c ∈ hexUpper := by apply forall_byte; decide +kernel
  exact this b c hc

/-- C51: the function yields NULL or a text, and the text consists of 16 upper-case hexadecimal digits, is accepted by the
validator and spells the eight address bytes of the frame in the documented order. -/
theorem C51_secondary_address_format (f : Frame) (hs : f.dataSize ≤ 252) (s : List Byte)
    (h : getSecondaryAddress f = .ok (some s)) :
    s = addressText ((payload f).take 8) ∧ ((payload f).take 8).length = 8 ∧ s.length = 16 ∧ (∀ c ∈ s, c ∈ hexUpper) ∧
      isSecondaryAddress s = true := by
  obtain ⟨_, _, h12, h4⟩ := getAddr_eq f hs s h
  have h8 : ((payload f).take 8).length = 8 := by unfold payload; simp; omega
  have hl : s.length = 16 := by rw [h4, addressText_length _ h8]
  have hu : ∀ c ∈ s, c ∈ hexUpper := by rw [h4]; exact addressText_upper _
  exact ⟨h4, h8, hl, hu, ((C52_address_validation s 0).1).mpr ⟨hl, fun c hc => .inl (hu c hc)⟩⟩

/-- C51: and the text exists exactly for response telegrams with variable data whose payload parses. -/
theorem C51_secondary_address_exists (f : Frame) (hs : f.dataSize ≤ 252) :
    (∃ s, getSecondaryAddress f = .ok (some s)) ↔
      f.control &&& 0x40 = 0 ∧ f.ci = 0x72 ∧ ∃ x, frameDataParse f FrameData.new = .ok (0, x) := by
  constructor
  · rintro ⟨s, h⟩
    obtain ⟨h1, h2, _, _⟩ := getAddr_eq f hs s h
    refine ⟨h2, h1, ?_⟩
    unfold getSecondaryAddress at h
    rw [if_neg (by simpa using h1)] at h
    have hc := (frameDataParse_cases f FrameData.new).2.2 h2 h1
    cases hp : frameDataParse f FrameData.new with
    | error e => rw [hp] at h; simp at h
    | ok q =>
      obtain ⟨q1, q2⟩ := q
      rw [hp] at h hc
      by_cases h0 : f.dataSize = 0
      · rw [if_pos h0] at hc
        simp only [Except.ok.injEq, Prod.mk.injEq] at hc
        rw [hc.1] at h; simp at h
      · rw [if_neg h0] at hc
        cases hv : variableParse f FrameData.new.var with
        | error e => rw [hv] at hc; simp at hc
        | ok r =>
          rw [hv] at hc
          simp only [ok_bind, Except.ok.injEq, Prod.mk.injEq] at hc
          rcases variableParse_code _ _ r.1 r.2 hv with hq | hq
          · exact ⟨q2, by rw [hc.1, hq]⟩
          · rw [hc.1, hq] at h; simp at h
  · rintro ⟨h1, h2, x, hx⟩
    unfold getSecondaryAddress
    rw [if_neg (by simpa using h2), hx]
    obtain ⟨v, hv, _⟩ := C15_hex_text x.var.header.idBcd.bytes 4 (by omega) (by omega) (by simp)
    obtain ⟨⟨m, hm⟩⟩ : Nonempty { m : List Byte // m.length = 2 ∧ x.var.header.manufacturer.bytes = m } :=
      ⟨⟨_, by simp, rfl⟩⟩
    simp only [ok_bind, show ¬ ((0:Int) = -1) by decide, if_false, hv, Buf.rd, hm.2]
    match m, hm.1 with
    | [a, b], _ => exact ⟨_, rfl⟩

/-- the header 12345678 2440 01 07 of the sample response -/
example := (C51_secondary_address_exists (rsp 0x72 hdr) (by decide)).mp ⟨cs! "1234567824400107", by decide +kernel⟩

example := C51_secondary_address_format (rsp 0x72 hdr) (by decide) (cs! "1234567824400107") (by decide +kernel)

/-- C51: different headers give different texts (the text determines the eight address bytes). -/
theorem C51_secondary_address_injective (f g : Frame) (hf : f.dataSize ≤ 252) (hg : g.dataSize ≤ 252) (s : List Byte)
    (h1 : getSecondaryAddress f = .ok (some s)) (h2 : getSecondaryAddress g = .ok (some s)) :
    (payload f).take 8 = (payload g).take 8 := by
  have a := C51_secondary_address_format f hf s h1
  have b := C51_secondary_address_format g hg s h2
  rw [← addressBytes_text ((payload f).take 8) (by omega), ← addressBytes_text ((payload g).take 8) (by omega), ← a.1, ← b.1]

/-- the sample response has the address 12345678 2440 01 07 -/
example : getSecondaryAddress (rsp 0x72 hdr) = .ok (some (cs! "1234567824400107")) := by decide +kernel

/-! ### C50 -/

theorem hexUpper_isHex {c : Byte} (h : c ∈ hexUpper) : IsHex c := .inl h

theorem selBytes_eq (s : List Byte) (hl : s.length = 16) (hx : ∀ c ∈ s, IsHex c) (hid : ∀ c ∈ s.take 8, IdDigit c) :
    selBytes s = addressBytes s := by
  match s, hl with
  | [c0, c1, c2, c3, c4, c5, c6, c7, c8, c9, c10, c11, c12, c13, c14, c15], _ =>
    simp only [List.take_succ_cons, List.take_zero, List.mem_cons, List.not_mem_nil, or_false, forall_eq_or_imp, forall_eq] at hx hid
    obtain ⟨h0, h1, h2, h3, h4, h5, h6, h7, h8, h9, h10, h11, h12, h13, h14, h15⟩ := hx
    obtain ⟨d0, d1, d2, d3, d4, d5, d6, d7⟩ := hid
    simp only [selBytes]
    rw [idNibble_ok c0 h0 d0, idNibble_ok c1 h1 d1, idNibble_ok c2 h2 d2, idNibble_ok c3 h3 d3, idNibble_ok c4 h4 d4,
      idNibble_ok c5 h5 d5, idNibble_ok c6 h6 d6, idNibble_ok c7 h7 d7]
    rfl

/-- C50 (packing): an invalid address text is refused and the frame left alone; a valid one whose identification digits are
decimal or the wildcard F is packed, into a frame of type LONG, as the selection telegram (SND_UD to address FD, CI 52) for
exactly the bytes the text stands for. -/
theorem C50_select_pack_partial (g : Frame) (s : List Byte) :
    (isSecondaryAddress s = false → selectPack g s = .ok (-1, g)) ∧
    (isSecondaryAddress s = true → (∀ c ∈ s.take 8, IdDigit c) → g.type = 4 →
      ∃ g', selectPack g s = .ok (0, g') ∧ Carries g' (.data 0x73 0xFD 0x52 (addressBytes s)) ∧
        g'.start1 = g.start1 ∧ g'.start2 = g.start2 ∧ g'.stop = g.stop) := by
  refine ⟨selectPack_bad g s, fun h hid ht => ?_⟩
  obtain ⟨hl, hx⟩ := ((C52_address_validation s 0).1).mp h
  obtain ⟨d, h1, h2⟩ := selectPack_eq g s hl hx
  refine ⟨_, h1, ?_, rfl, rfl, rfl⟩
  rw [selBytes_eq s hl hx hid] at h2
  have hlen : (addressBytes s).length = 8 := by rw [← h2]; simp
  refine ⟨?_, rfl, rfl, rfl, hlen.symm, h2⟩
  rw [if_neg (by intro h0; rw [h0] at hlen; simp at hlen)]
  exact ht

/-- C50: if the library reports the address `s` for a response whose identification number consists of decimal digits (or F),
then selecting `s` puts exactly the eight address bytes of that response into the selection frame. -/
theorem C50_select_reported_address_partial (f g : Frame) (hs : f.dataSize ≤ 252) (s : List Byte)
    (h : getSecondaryAddress f = .ok (some s)) (hid : ∀ c ∈ s.take 8, IdDigit c) (ht : g.type = 4) :
    ∃ g', selectPack g s = .ok (0, g') ∧ Carries g' (.data 0x73 0xFD 0x52 ((payload f).take 8)) := by
  obtain ⟨h1, h2, _, _, h5⟩ := C51_secondary_address_format f hs s h
  obtain ⟨g', a, b, _⟩ := (C50_select_pack_partial g s).2 h5 hid ht
  refine ⟨g', a, ?_⟩
  rw [h1, addressBytes_text _ (by omega)] at b
  exact b

example := C50_select_reported_address_partial (rsp 0x72 hdr) (frameNew 4) (by decide) (cs! "1234567824400107") (by decide +kernel) (by decide +kernel) rfl

/-- C50, why only partial: identification numbers with a hexadecimal digit A..E are selected wrongly (A as 1). -/
theorem C50_hex_digit_violation :
    ∃ (f : Frame) (s : List Byte) (g' : Frame), getSecondaryAddress f = .ok (some s) ∧ selectPack (frameNew 4) s = .ok (0, g') ∧
      (payload f).take 8 = [0x0A, 0, 0, 0, 0x24, 0x40, 1, 7] ∧ payload g' = [0x01, 0, 0, 0, 0x24, 0x40, 1, 7] := by
  refine ⟨rsp 0x72 [0x0A, 0, 0, 0, 0x24, 0x40, 1, 7, 0, 0, 0, 0], cs! "0000000A24400107", _, by decide +kernel, rfl, by decide +kernel, by decide +kernel⟩

example : ∃ s, getSecondaryAddress (rsp 0x72 hdr) = .ok (some s) ∧ (∀ c ∈ s.take 8, IdDigit c) ∧ (frameNew 4).type = 4 :=
  ⟨cs! "1234567824400107", by decide +kernel, by decide +kernel, rfl⟩

end Mbus
