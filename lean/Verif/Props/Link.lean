import Verif.Lemmas.Pack
/-
Property theorems C01-C10 (link layer).  Statements use only the model functions, the `Frame` fields and
the specification in Verif/Spec/Link.lean.
-/
namespace Mbus
open Spec

theorem hs_of (f : Frame) (t : Telegram) (hc : Carries f t) (hs : StartStop f t) :
    (t ≠ .ack → f.stop = 0x16) ∧ f.start1 = t.wire.headD 0 ∧ (f.type = 3 ∨ f.type = 4 → f.start2 = 0x68) := by
  cases t <;> simp_all [StartStop, Telegram.wire, Carries]

/-! ### C03 -/

/-- C03: `mbus_parse` returns 0 exactly on the link-layer grammar, whatever the frame object held before. -/
theorem C03_parse_accepts_iff (f : Frame) (bs : List Byte) :
    (∃ f', mbusParse f bs bs.length = .ok (0, f')) ↔
      bs.head? = some 0xE5 ∨ ∃ t : Telegram, t ≠ .ack ∧ t.Legal ∧ bs = t.wire := by
  obtain ⟨f', h1, h2⟩ := parse_code f bs
  constructor
  · rintro ⟨g, hg⟩
    have hc := (ok_code h1 hg).1
    rcases h2 hc with h | ⟨t, a, b, c, _⟩
    · exact .inl h.1
    · exact .inr ⟨t, a, b, c⟩
  · rintro (h | ⟨t, _, hl, rfl⟩)
    · refine ⟨f', ?_⟩
      rw [h1]
      cases bs with
      | nil => simp at h
      | cons x xs =>
        simp at h
        subst h
        simp [code]
    · exact ⟨f', by rw [h1, code_wire t hl]⟩

/-- C03: and the accepted frame object carries the telegram that the bytes spell. -/
theorem C03_parse_delivers (f f' : Frame) (bs : List Byte) (h : mbusParse f bs bs.length = .ok (0, f')) :
    (bs.head? = some 0xE5 ∧ Carries f' .ack) ∨
      ∃ t : Telegram, t ≠ .ack ∧ t.Legal ∧ bs = t.wire ∧ Carries f' t ∧ WellFormed f' := by
  obtain ⟨g, h1, h2⟩ := parse_code f bs
  rw [h1] at h
  simp at h
  obtain ⟨hc, rfl⟩ := h
  rcases h2 hc with h | h
  · exact .inl ⟨h.1, h.2.1⟩
  · exact .inr h

example : (Telegram.data 0x08 1 0x72 [1, 2, 3]).Legal ∧
    (Telegram.data 0x08 1 0x72 [1, 2, 3]).wire = [0x68, 6, 6, 0x68, 8, 1, 0x72, 1, 2, 3, 0x81, 0x16] := by decide

/-! ### C09 -/

/-- C09 (memory safety): with at least `size` readable bytes the parser has no undefined behaviour, whatever the
bytes and the previous frame contents, and it never looks at byte `size` or beyond. -/
theorem C09_parse_safe (f : Frame) (data : List Byte) (size : Nat) (h : size ≤ data.length) :
    (∃ r f', mbusParse f data size = .ok (r, f')) ∧
    (∀ data', data'.take size = data.take size → size ≤ data'.length → mbusParse f data' size = mbusParse f data size) := by
  constructor
  · obtain ⟨f', h1, _⟩ := parse_code f (data.take size)
    rw [show (data.take size).length = size by simp; omega] at h1
    exact ⟨_, f', by rw [parse_take f data size h]; exact h1⟩
  · intro data' he hl
    rw [parse_take f data' size hl, parse_take f data size h, he]

/-- five bytes out of a buffer of seven -/
example := C09_parse_safe Frame.zero [0x10, 0x40, 1, 0x41, 0x16, 0xAA, 0x68] 5 (by decide)

/-- C09 (stale state): the return code does not depend on what the frame object held before, and on success
two frame objects with arbitrary different previous contents end up carrying the same telegram. -/
theorem C09_parse_stale_independent (f g : Frame) (data : List Byte) (size : Nat) (h : size ≤ data.length) :
    ∃ r f' g', mbusParse f data size = .ok (r, f') ∧ mbusParse g data size = .ok (r, g') ∧
      (r = 0 → ∃ t : Telegram, Carries f' t ∧ Carries g' t) := by
  obtain ⟨f', h1, h2⟩ := parse_code f (data.take size)
  obtain ⟨g', k1, k2⟩ := parse_code g (data.take size)
  rw [show (data.take size).length = size by simp; omega] at h1 k1
  refine ⟨code (data.take size), f', g', by rw [parse_take f data size h]; exact h1,
    by rw [parse_take g data size h]; exact k1, ?_⟩
  intro hz
  rcases h2 hz with ha | ⟨t, a, b, c, d, _⟩ <;> rcases k2 hz with ka | ⟨t', a', b', c', d', _⟩
  · exact ⟨.ack, ha.2.1, ka.2.1⟩
  · exact absurd (c' ▸ ha.1) (wire_head_ne t' a')
  · exact absurd (c ▸ ka.1) (wire_head_ne t a)
  · have e1 : t = t' := wire_inj t t' (c ▸ c')
    exact ⟨t, d, e1 ▸ d'⟩

example : (mbusParse Frame.zero [0x10, 0x40, 1, 0x41, 0x16, 0xAA] 5).toOption.map Prod.fst = some 0 := by decide

/-! ### C01, C02 -/

/-- C01: packing a frame that carries a legal telegram - with arbitrary stale length and checksum fields, arbitrary
stale payload bytes beyond the payload - into any large enough buffer and parsing the packed bytes into any other frame
object succeeds and delivers the same telegram. -/
theorem C01_pack_parse_roundtrip (f g : Frame) (t : Telegram) (hl : t.Legal) (hc : Carries f t) (hs : StartStop f t)
    (buf : List Byte) (size : Nat) (hb : size ≤ buf.length) (hn : t.wire.length ≤ size) :
    ∃ f' buf' g', framePack f buf size = .ok ((t.wire.length : Int), f', buf') ∧
      buf'.take t.wire.length = t.wire ∧
      mbusParse g buf' t.wire.length = .ok (0, g') ∧ Carries g' t := by
  obtain ⟨h1, h2, h3, h4⟩ := packBytes_wire f t hl hc (hs_of f t hc hs)
  have hp := framePack_eq f buf size hb h3 h4
  rw [if_neg (by omega), h1, h2] at hp
  have ht : (t.wire ++ buf.drop t.wire.length).take t.wire.length = t.wire := by simp
  obtain ⟨g', k1, k2⟩ := parse_code g t.wire
  rw [code_wire t hl] at k1 k2
  refine ⟨_, _, g', hp, ht, ?_, ?_⟩
  · rw [parse_take _ _ _ (by simp), ht]; exact k1
  · rcases k2 rfl with ⟨a, b, _⟩ | ⟨u, a, b, c, d, _⟩
    · by_cases hk : t = .ack
      · subst hk; exact b
      · exact absurd a (wire_head_ne t hk)
    · exact wire_inj t u c ▸ d

/-- a telegram with two data bytes into a buffer of 20 -/
example := C01_pack_parse_roundtrip
  { frameNew TYPE_LONG with control := 0x53, address := 0xFE, ci := 0x51, dataSize := 2, data := ⟨0x01 :: 0x7A :: List.replicate 250 9, by decide +kernel⟩ }
  Frame.zero (.data 0x53 0xFE 0x51 [0x01, 0x7A]) (by decide) (by decide +kernel) ⟨rfl, rfl, rfl⟩ (List.replicate 20 0xCC) 20 (by simp) (by decide)

/-- C02: whatever non-ACK byte string the parser accepts, packing the resulting frame reproduces it exactly
(and leaves the rest of the buffer alone). -/
theorem C02_parse_pack_roundtrip (f f' : Frame) (bs : List Byte) (h : mbusParse f bs bs.length = .ok (0, f'))
    (hk : bs.head? ≠ some 0xE5) (buf : List Byte) (size : Nat) (hb : size ≤ buf.length) (hn : bs.length ≤ size) :
    ∃ f'', framePack f' buf size = .ok ((bs.length : Int), f'', bs ++ buf.drop bs.length) := by
  rcases C03_parse_delivers f f' bs h with ⟨a, _⟩ | ⟨t, a, b, rfl, d, e⟩
  · exact absurd a hk
  · have hs : StartStop f' t := by
      cases t with
      | ack => exact absurd rfl a
      | short c x =>
        have : f'.type = 2 := d.1
        rcases e with e | e | e | e <;> simp_all [StartStop]
      | data c x ci p =>
        have : f'.type = if p = [] then 3 else 4 := d.1
        rcases e with e | e | e | e <;> simp_all [StartStop] <;> split at this <;> simp_all
    obtain ⟨h1, h2, h3, h4⟩ := packBytes_wire f' t b d (hs_of f' t d hs)
    have hp := framePack_eq f' buf size hb h3 h4
    rw [if_neg (by omega), h1, h2] at hp
    exact ⟨_, hp⟩

/-- A concrete long frame with stale length/checksum fields satisfying the hypotheses of C01. -/
example : ∃ f : Frame, Carries f (.data 0x53 0xFD 0x52 [0x78]) ∧ StartStop f (.data 0x53 0xFD 0x52 [0x78]) ∧
    f.checksum = 0x99 ∧ f.length1 = 7 :=
  ⟨{ frameNew TYPE_LONG with
      control := 0x53, address := 0xFD, ci := 0x52, dataSize := 1, checksum := 0x99, length1 := 7,
      data := ⟨0x78 :: List.replicate 251 0xCC, by decide +kernel⟩ },
    by decide +kernel, by simp [StartStop, frameNew, TYPE_LONG, TYPE_ACK, TYPE_SHORT, TYPE_CONTROL, LONG_START, FRAME_STOP]⟩

/-! ### C04, C05 -/

/-- C04 (first half): when `mbus_parse` answers `n > 0`, no continuation shorter than `n` bytes is accepted and the
total never exceeds 261 bytes. -/
theorem C04_need_more_lower_bound (f f' : Frame) (bs : List Byte) (n : Int)
    (h : mbusParse f bs bs.length = .ok (n, f')) (hn : 0 < n) :
    bs.length + n ≤ 261 ∧
    ∀ (g : Frame) (more : List Byte), (more.length : Int) < n →
      ∀ g', mbusParse g (bs ++ more) (bs ++ more).length ≠ .ok (0, g') := by
  obtain ⟨f0, h1, _⟩ := parse_code f bs
  have hc := (ok_code h1 h).1
  subst hc
  constructor
  · exact code_pos_bound bs hn
  · intro g more hm g' hg
    obtain ⟨g0, k1, _⟩ := parse_code g (bs ++ more)
    have hz := (ok_code k1 hg).1
    have := code_more bs more hn hm
    omega

/-- the start of a long frame: two more bytes are needed to know its length -/
example := C04_need_more_lower_bound Frame.zero _ [0x68] 2 rfl (by decide)

/-- C04 (second half): once the length byte is known (3 bytes or more, or a short frame), every accepted continuation
is exactly `n` bytes long, and one exists after a long-frame header whose continuation so far is a legal prefix. -/
theorem C04_need_more_exact (f f' : Frame) (bs : List Byte) (n : Int)
    (h : mbusParse f bs bs.length = .ok (n, f')) (hn : 0 < n) (hk : 3 ≤ bs.length ∨ bs.head? = some 0x10)
    (g g' : Frame) (more : List Byte) (ha : mbusParse g (bs ++ more) (bs ++ more).length = .ok (0, g')) :
    (more.length : Int) = n := by
  obtain ⟨f0, h1, _⟩ := parse_code f bs
  have hc := (ok_code h1 h).1
  subst hc
  obtain ⟨g0, k1, _⟩ := parse_code g (bs ++ more)
  exact code_exact bs more hn hk (ok_code k1 ha).1

/-- two bytes of a short frame, completed by three -/
example := C04_need_more_exact Frame.zero _ [0x10, 0x40] 3 rfl (by decide) (.inr rfl) Frame.zero _ [0x01, 0x41, 0x16] rfl

/-- C05: every non-empty proper prefix of a legal short/control/long telegram is answered with a positive count that
does not exceed what is missing. -/
theorem C05_prefix_not_rejected (f : Frame) (t : Telegram) (hl : t.Legal) (ha : t ≠ .ack) (k : Nat)
    (h0 : 0 < k) (hk : k < t.wire.length) :
    ∃ n f', mbusParse f (t.wire.take k) k = .ok (n, f') ∧ 0 < n ∧ n ≤ t.wire.length - k := by
  obtain ⟨f', h1, _⟩ := parse_code f (t.wire.take k)
  rw [show (t.wire.take k).length = k by simp; omega] at h1
  exact ⟨_, f', h1, code_prefix t hl ha k h0 hk⟩

example : mbusParse Frame.zero [0x68, 0x06, 0x06, 0x68] 4 =
    .ok (8, { Frame.zero with start1 := 0x68, length1 := 6, length2 := 6 }) := by decide +kernel

/-! ### C06 -/

/-- C06: replacing any single byte of an accepted short/control/long telegram by a different value makes the parser
refuse it, unless the first byte became 0xE5 (then the string reads as an ACK). -/
theorem C06_single_byte_corruption (f : Frame) (t : Telegram) (hl : t.Legal) (ha : t ≠ .ack) (i : Nat) (v : Byte)
    (hi : i < t.wire.length) (hv : v ≠ t.wire[i]) (hx : ¬ (i = 0 ∧ v = 0xE5)) (f' : Frame) :
    mbusParse f (t.wire.set i v) t.wire.length ≠ .ok (0, f') := by
  intro h
  rw [show t.wire.length = (t.wire.set i v).length by simp] at h
  rcases C03_parse_delivers f f' _ h with ⟨a, _⟩ | ⟨u, a, b, c, _⟩
  · cases i with
    | zero =>
      have : v = 0xE5 := by
        cases hw : t.wire with
        | nil => simp [hw] at hi
        | cons x xs => simpa [hw] using a
      exact hx ⟨rfl, this⟩
    | succ i =>
      apply wire_head_ne t ha
      cases hw : t.wire with
      | nil => simp [hw] at hi
      | cons x xs => simpa [hw] using a
  · exact wire_one_byte t u hl b ha a i v hi hv c

example : (Telegram.short 0x5B 5).Legal ∧ (0x7B : Byte) ≠ (Telegram.short 0x5B 5).wire[1] := by decide

/-! ### C07, C10 -/

/-- C07, partial: for short, control and long frame objects (payload within the 252-byte array) `mbus_frame_verify`
returns 0 exactly on well-formed frames, and -1 otherwise; unknown types are refused.
Missing: the ACK type, where the claim is false - see `C07_ack_violation`. -/
theorem C07_verify_iff_wellformed_partial (f : Frame) (hk : f.type ≠ 1) (hd : f.type = 4 → f.dataSize ≤ 252) :
    frameVerify f = .ok (if WellFormed f then 0 else -1) := frameVerify_eq f hd hk

/-- a long frame whose checksum is wrong -/
example := C07_verify_iff_wellformed_partial
  { frameNew TYPE_LONG with control := 0x53, address := 0xFE, ci := 0x51, dataSize := 2, length1 := 5, length2 := 5, checksum := 1 } (by decide) (by decide)

/-- C07 is violated for ACK frames, in both directions: a valid ACK is answered 1, an invalid one 0 (mbus-protocol.c:354). -/
theorem C07_ack_violation (f : Frame) (hk : f.type = 1) :
    (WellFormed f → frameVerify f = .ok 1) ∧ (¬ WellFormed f → frameVerify f = .ok 0) := by
  unfold frameVerify WellFormed
  simp [hk, TYPE_ACK, ACK_START]
  grind

example : WellFormed (frameNew TYPE_ACK) ∧ frameVerify (frameNew TYPE_ACK) = .ok 1 ∧
    frameVerify { frameNew TYPE_ACK with start1 := 0 } = .ok 0 := by decide +kernel

/-- C10: recomputing length and checksum turns any short/control/long frame with correct start/stop bytes, a legal
control code and a payload of at most 252 bytes into one that verifies. -/
theorem C10_calc_then_verify (f : Frame) (t : Telegram) (hl : t.Legal) (ha : t ≠ .ack) (hc : Carries f t) (hs : StartStop f t) :
    ∃ f', frameCalcChecksum (frameCalcLength f).2 = .ok (0, f') ∧ frameVerify f' = .ok 0 ∧ Carries f' t := by
  obtain ⟨_, _, h3, h4⟩ := packBytes_wire f t hl hc (hs_of f t hc hs)
  have hne : f.type ≠ 1 := by
    cases t with
    | ack => exact absurd rfl ha
    | short c a => simp [hc.1]
    | data c a ci p => rw [hc.1]; split <;> simp
  have hck : calcChecksum (frameCalcLength f).2 = .ok (specChecksum f) := calcChecksum_eq _ h3
  refine ⟨fixed f, ?_, ?_, ?_⟩
  · unfold frameCalcChecksum
    rw [hck, if_pos (by simpa [frameCalcLength, TYPE_ACK, TYPE_SHORT, TYPE_CONTROL, TYPE_LONG] using h4)]
    rfl
  · rw [frameVerify_eq (fixed f) h3 hne, if_pos]
    unfold WellFormed fixed specChecksum calcLength TYPE_CONTROL TYPE_LONG
    cases t with
    | ack => exact absurd rfl ha
    | short c a => simp_all [StartStop, Carries, Telegram.Legal]
    | data c a ci p =>
      obtain ⟨k1, k2, k3, k4, k5, k6⟩ := hc
      by_cases hp : p = [] <;> simp_all [StartStop, Telegram.Legal]
  · cases t <;> exact hc

example := C10_calc_then_verify
  { frameNew TYPE_LONG with control := 0x53, address := 0xFE, ci := 0x51, dataSize := 2, data := ⟨0x01 :: 0x7A :: List.replicate 250 9, by decide +kernel⟩ }
  (.data 0x53 0xFE 0x51 [0x01, 0x7A]) (by decide) (by decide) (by decide +kernel) ⟨rfl, rfl, rfl⟩

/-- C10: both recomputations are idempotent; unknown frame types are refused with -1 and no change. -/
theorem C10_calc_idempotent (f : Frame) (hd : f.type = 4 → f.dataSize ≤ 252) :
    (frameCalcLength (frameCalcLength f).2).2 = (frameCalcLength f).2 ∧
    (∃ r f', frameCalcChecksum f = .ok (r, f') ∧ frameCalcChecksum f' = .ok (r, f')) ∧
    (¬ (f.type = 1 ∨ f.type = 2 ∨ f.type = 3 ∨ f.type = 4) → frameCalcChecksum f = .ok (-1, f)) := by
  refine ⟨rfl, ?_, ?_⟩
  · unfold frameCalcChecksum
    rw [calcChecksum_eq f hd]
    split
    · rename_i h
      refine ⟨0, { f with checksum := specChecksum f }, rfl, ?_⟩
      rw [if_pos h]
      have : calcChecksum { f with checksum := specChecksum f } = .ok (specChecksum f) := calcChecksum_eq _ hd
      rw [this]
      rfl
    · rename_i h
      exact ⟨-1, f, rfl, by rw [if_neg h]⟩
  · intro h
    unfold frameCalcChecksum
    simp [TYPE_ACK, TYPE_SHORT, TYPE_CONTROL, TYPE_LONG, h]

example := C10_calc_idempotent { frameNew TYPE_LONG with control := 0x53, dataSize := 252 } (by decide)

/-! ### C08 -/

/-- C08: with a buffer of at least `size` bytes and a payload inside the 252-byte array, packing has no undefined
behaviour; it succeeds iff the type is known and `size` suffices; then it returns the exact wire length, changes
only that many leading bytes, and otherwise it returns a negative code and leaves the buffer untouched. -/
theorem C08_pack_bounds (f : Frame) (buf : List Byte) (size : Nat) (hb : size ≤ buf.length)
    (hd : f.type = 4 → f.dataSize ≤ 252) :
    ∃ r f' buf', framePack f buf size = .ok (r, f', buf') ∧ buf'.length = buf.length ∧
      ((∃ n, wireSize f = some n ∧ n ≤ size ∧ r = n ∧ buf'.drop n = buf.drop n) ∨
       ((∀ n, wireSize f = some n → size < n) ∧ r < 0 ∧ buf' = buf)) := by
  by_cases ht : f.type = 1 ∨ f.type = 2 ∨ f.type = 3 ∨ f.type = 4
  · have hw : wireSize f = some (packLen f) := by
      unfold wireSize packLen
      rcases ht with h | h | h | h <;> simp [h]
    have hp := framePack_eq f buf size hb hd ht
    have hlen := packBytes_length f hd ht
    by_cases hz : size < packLen f
    · rw [if_pos hz] at hp
      refine ⟨_, _, _, hp, rfl, .inr ⟨?_, by decide, rfl⟩⟩
      intro n hn
      rw [hw] at hn
      simp at hn; omega
    · rw [if_neg hz] at hp
      refine ⟨_, _, _, hp, ?_, .inl ⟨packLen f, hw, by omega, rfl, ?_⟩⟩
      · simp [hlen]; omega
      · rw [← hlen]; simp
  · refine ⟨_, _, _, framePack_unknown f buf size ht, rfl, .inr ⟨?_, by decide, rfl⟩⟩
    intro n hn
    unfold wireSize at hn
    simp at ht
    simp [ht] at hn

/-- a buffer that is one byte too short -/
example := C08_pack_bounds { frameNew TYPE_LONG with control := 0x53, dataSize := 2 } (List.replicate 10 0) 10 (by decide) (by decide)

/-- C08, the contract is necessary: a long frame whose `data_size` exceeds the array makes the checksum loop read past
`data[251]`, so the bound on `data_size` must be kept by the caller. -/
theorem C08_pack_oversized_payload (f : Frame) (buf : List Byte) (size : Nat) (ht : f.type = 4) (hd : 252 < f.dataSize) :
    framePack f buf size = .error (.oobRead 252 252) := by
  have : calcChecksum { f with length1 := calcLength f, length2 := calcLength f } = .error (.oobRead 252 252) :=
    calcChecksum_fault _ ht hd
  unfold framePack frameCalcLength frameCalcChecksum
  rw [ht] at this
  simp only [this, error_bind, TYPE_ACK, TYPE_SHORT, TYPE_CONTROL, TYPE_LONG, ht]
  simp

example := C08_pack_oversized_payload { frameNew TYPE_LONG with dataSize := 253 } (List.replicate 300 0) 300 rfl (by decide)

end Mbus
