import Verif.Spec.Command
import Verif.Lemmas.Session
import Verif.Props.Link
import Verif.Props.Address
/-
Property theorems C53-C55 (options and commands).  The commands are run on the link of a handle (TCP or serial) attached to a
bus with arbitrary behaviour: statements speak about the byte strings handed to the descriptor.
-/
namespace Mbus
open Spec

/-! ### C53 -/

theorem setOption_ok (st : Settings) (o v : Int) (h : SettingsOk st) : SettingsOk (setOption st o v).2 := by
  unfold setOption PURGE_NONE PURGE_M2S PURGE_S2M
  unfold SettingsOk at h ⊢
  grind

/-- C53: from a new handle, no sequence of option calls leaves the legal ranges. -/
theorem C53_options_stay_legal (calls : List (Int × Int)) : SettingsOk (setOptions Settings.default calls) := by
  have : ∀ st, SettingsOk st → SettingsOk (setOptions st calls) := by
    induction calls with
    | nil => exact fun st h => h
    | cons c cs ih => exact fun st h => ih _ (setOption_ok st c.1 c.2 h)
  exact this _ (by unfold SettingsOk Settings.default PURGE_M2S; simp)

/-- C53: a call either is refused (-1, nothing changed) or is accepted (0) and sets exactly the option it names to the given
value; which of the two is decided by the documented ranges. -/
theorem C53_option_effect (st : Settings) (o v : Int) :
    setOption st o v =
      if o = 0 ∧ 0 ≤ v ∧ v ≤ 9 then (0, ⟨v, st.maxSearchRetry, st.purgeFirst⟩)
      else if o = 1 ∧ 0 ≤ v ∧ v ≤ 9 then (0, ⟨st.maxDataRetry, v, st.purgeFirst⟩)
      else if o = 2 ∧ (v = 0 ∨ v = 1 ∨ v = 2) then (0, ⟨st.maxDataRetry, st.maxSearchRetry, v⟩)
      else (-1, st) := by
  unfold setOption PURGE_NONE PURGE_M2S PURGE_S2M
  grind

example : setOptions Settings.default [(0, 9), (1, 10), (2, 2), (7, 0)] = ⟨9, 1, 2⟩ := by decide

/-! ### C54 -/

theorem bus_finish (k : Kind) (env : Env) (ho : IsOpen k env) (b : Bus) {f : Frame} {t : Telegram}
    (h : Packs f t) (hl : t.Legal) (purge : Int) {res : C (Int × Bus)}
    (hres : res = (((busLink k env).ops purge).send b f >>= fun q => if q.1 = -1 then .ok (-1, q.2.2) else .ok (0, q.2.2))) :
    Transmitted env b t res := by
  have e : ((busLink k env).ops purge).send b f = _ := bus_send k env ho b f t hl h
  rw [hres, e, ok_bind]
  by_cases hw : env.wret b.sent t.wire.length = t.wire.length
  · rw [if_pos hw]
    exact ⟨0, _, rfl, hl, rfl, .inl ⟨rfl, hw⟩⟩
  · rw [if_neg hw]
    exact ⟨-1, _, rfl, hl, rfl, .inr ⟨rfl, hw⟩⟩

theorem ofNat_byte (n : Byte) : UInt8.ofNat (n.toNat : Int).toNat = n := by simp

theorem byte_primary (n : Byte) : isPrimaryAddress (n.toNat : Int) = true := by
  rw [isPrimary_iff]; have := n.toNat_lt; omega

/-- C54: `mbus_send_request_frame` sends REQ_UD2 to the address, or refuses an address outside 0..255. -/
theorem C54_request (k : Kind) (env : Env) (ho : IsOpen k env) (purge : Int) (b : Bus) :
    (∀ n : Byte, Transmitted env b (.short 0x5B n) (sendRequest ((busLink k env).ops purge) b n.toNat)) ∧
    (∀ a : Int, ¬ (0 ≤ a ∧ a ≤ 255) → Refused b (-1) (sendRequest ((busLink k env).ops purge) b a)) := by
  constructor
  · intro n
    refine bus_finish k env ho b (packs_short 0x5B n) (by decide : (0x5B : Byte) ∈ shortCodes) purge ?_
    unfold sendRequest
    rw [if_neg (by rw [byte_primary]; decide), ofNat_byte]
    rfl
  · intro a ha
    unfold sendRequest Refused
    rw [if_pos (isPrimary_false a ha)]

/-- C54: `mbus_send_ping_frame` sends SND_NKE to the address, or refuses an address outside 0..255 (with 1). -/
theorem C54_ping (k : Kind) (env : Env) (ho : IsOpen k env) (purge : Int) (b : Bus) (drain : Bool) :
    (∀ n : Byte, Transmitted env b (.short 0x40 n) (sendPing ((busLink k env).ops purge) b n.toNat drain)) ∧
    (∀ a : Int, ¬ (0 ≤ a ∧ a ≤ 255) → Refused b 1 (sendPing ((busLink k env).ops purge) b a drain)) := by
  constructor
  · intro n
    have hl : (Telegram.short 0x40 n).Legal := (by decide : (0x40 : Byte) ∈ shortCodes)
    have e : ((busLink k env).ops purge).send b _ = _ := bus_send k env ho b _ _ hl (packs_short 0x40 n)
    unfold sendPing
    rw [if_neg (by rw [byte_primary]; decide), ofNat_byte, show MASK_SND_NKE ||| MASK_DIR_M2S = 0x40 from rfl]
    simp only [e, ok_bind]
    by_cases hw : env.wret b.sent (Telegram.short 0x40 n).wire.length = (Telegram.short 0x40 n).wire.length
    · rw [if_pos hw, if_neg (by decide)]
      cases drain with
      | false => exact ⟨0, _, rfl, hl, rfl, .inl ⟨rfl, hw⟩⟩
      | true =>
        obtain ⟨r', b', h1, h2⟩ := purge_sent k env purge (busAfter env b (Telegram.short 0x40 n).wire)
        have e2 : ((busLink k env).ops purge).purge (busAfter env b (Telegram.short 0x40 n).wire) = .ok (r', b') := h1
        simp only [if_true, e2, ok_bind]
        exact ⟨0, _, rfl, hl, h2, .inl ⟨rfl, hw⟩⟩
    · rw [if_neg hw, if_pos rfl]
      exact ⟨-1, _, rfl, hl, rfl, .inr ⟨rfl, hw⟩⟩
  · intro a ha
    unfold sendPing Refused
    rw [if_pos (isPrimary_false a ha)]

theorem baudCode_some (baud : Int) (ci : Byte) (h : (baud, ci) ∈ baudTable) : baudCode baud = some ci := by
  simp only [baudTable, List.mem_cons, Prod.mk.injEq, List.not_mem_nil, or_false] at h
  rcases h with ⟨rfl, rfl⟩ | ⟨rfl, rfl⟩ | ⟨rfl, rfl⟩ | ⟨rfl, rfl⟩ | ⟨rfl, rfl⟩ | ⟨rfl, rfl⟩ | ⟨rfl, rfl⟩ | ⟨rfl, rfl⟩ <;> rfl

theorem baudCode_none (baud : Int) (h : ∀ ci, (baud, ci) ∉ baudTable) : baudCode baud = none := by
  unfold baudCode
  have e : ∀ (x : Int) (ci : Byte), (x, ci) ∈ baudTable → ¬ baud = x := by rintro x ci hx rfl; exact h ci hx
  rw [if_neg (e 300 0xB8 (by decide)), if_neg (e 600 0xB9 (by decide)), if_neg (e 1200 0xBA (by decide)),
    if_neg (e 2400 0xBB (by decide)), if_neg (e 4800 0xBC (by decide)), if_neg (e 9600 0xBD (by decide)),
    if_neg (e 19200 0xBE (by decide)), if_neg (e 38400 0xBF (by decide))]

/-- C54: `mbus_send_switch_baudrate_frame` sends SND_UD with the CI field of the baud rate and no payload, or refuses the
address or a baud rate not in the table. -/
theorem C54_baudrate (k : Kind) (env : Env) (ho : IsOpen k env) (purge : Int) (b : Bus) :
    (∀ (n : Byte) (baud : Int) (ci : Byte), (baud, ci) ∈ baudTable →
      Transmitted env b (.data 0x53 n ci []) (sendBaud ((busLink k env).ops purge) b n.toNat baud)) ∧
    (∀ a baud : Int, ¬ (0 ≤ a ∧ a ≤ 255) ∨ (∀ ci, (baud, ci) ∉ baudTable) →
      Refused b (-1) (sendBaud ((busLink k env).ops purge) b a baud)) := by
  constructor
  · intro n baud ci h
    refine bus_finish k env ho b (packs_control 0x53 n ci) ⟨(by decide : (0x53 : Byte) ∈ dataCodes), by simp⟩ purge ?_
    unfold sendBaud
    rw [if_neg (by rw [byte_primary]; decide), ofNat_byte, baudCode_some baud ci h]
    rfl
  · intro a baud h
    unfold sendBaud Refused
    by_cases ha : 0 ≤ a ∧ a ≤ 255
    · rcases h with h | h
      · exact absurd ha h
      · rw [if_neg (by rw [(isPrimary_iff a).mpr ha]; decide), baudCode_none baud h]
    · rw [if_pos (isPrimary_false a ha)]

/-- C54: `mbus_send_application_reset_frame` sends SND_UD with CI 50 and the sub code as only payload byte, no payload if the
sub code is negative; it refuses the address or a sub code above 255. -/
theorem C54_application_reset (k : Kind) (env : Env) (ho : IsOpen k env) (purge : Int) (b : Bus) :
    (∀ n c : Byte, Transmitted env b (.data 0x53 n 0x50 [c]) (sendAppReset ((busLink k env).ops purge) b n.toNat c.toNat)) ∧
    (∀ (n : Byte) (c : Int), c < 0 → Transmitted env b (.data 0x53 n 0x50 []) (sendAppReset ((busLink k env).ops purge) b n.toNat c)) ∧
    (∀ a c : Int, ¬ (0 ≤ a ∧ a ≤ 255) ∨ 255 < c → Refused b (-1) (sendAppReset ((busLink k env).ops purge) b a c)) := by
  have hc : (0x53 : Byte) ∈ dataCodes := by decide
  refine ⟨?_, ?_, ?_⟩
  · intro n c
    obtain ⟨d, hd, ht⟩ : ∃ d : Buf 252, (frameNew TYPE_LONG).data.wr 0 c = .ok d ∧ d.bytes.take 1 = [c] := by
      obtain ⟨a0, a1, a2, a3, a4, a5, a6, a7, t, ht, hd⟩ := split8 (frameNew TYPE_LONG).data
      rw [hd]
      exact ⟨⟨c :: a1 :: a2 :: a3 :: a4 :: a5 :: a6 :: a7 :: t, ht⟩, rfl, rfl⟩
    have hp := packs_long 0x53 n 0x50 d 1 (by omega)
    rw [ht] at hp
    refine bus_finish k env ho b hp ⟨hc, by simp⟩ purge ?_
    unfold sendAppReset
    have := c.toNat_lt
    rw [if_neg (by rw [byte_primary]; decide), ofNat_byte, if_neg (by omega)]
    simp only [ge_iff_le]
    rw [if_pos (by omega), ofNat_byte]
    simp only [hd, ok_bind]
    rfl
  · intro n c h
    have hp := packs_long 0x53 n 0x50 (frameNew TYPE_LONG).data 0 (by omega)
    rw [List.take_zero] at hp
    refine bus_finish k env ho b hp ⟨hc, by simp⟩ purge ?_
    unfold sendAppReset
    rw [if_neg (by rw [byte_primary]; decide), ofNat_byte, if_neg (by omega)]
    simp only [ge_iff_le]
    rw [if_neg (by omega)]
    rfl
  · intro a c h
    unfold sendAppReset Refused
    by_cases ha : 0 ≤ a ∧ a ≤ 255
    · rcases h with h | h
      · exact absurd ha h
      · rw [if_neg (by rw [(isPrimary_iff a).mpr ha]; decide), if_pos (by omega)]
    · rw [if_pos (isPrimary_false a ha)]

theorem copyInto_ok (d : Buf 252) (data : List Byte) (n : Nat) (hn : n ≤ 252) (hd : n ≤ data.length) :
    ∃ d', copyInto d data n = .ok d' ∧ d'.bytes.take n = data.take n := by
  unfold copyInto
  rw [if_neg (by omega), dif_pos ⟨hn, hd⟩]
  refine ⟨_, rfl, ?_⟩
  rw [List.take_left' (by simp; omega)]

/-- C54: `mbus_send_user_data_frame` sends SND_UD with CI 51 and exactly the given bytes; it refuses the address, no data or
more than 252 bytes. -/
theorem C54_user_data (k : Kind) (env : Env) (ho : IsOpen k env) (purge : Int) (b : Bus) (data : List Byte) (size : Nat)
    (hd : size ≤ data.length) :
    (∀ n : Byte, 1 ≤ size → size ≤ 252 →
      Transmitted env b (.data 0x53 n 0x51 (data.take size)) (sendUserData ((busLink k env).ops purge) b n.toNat data size)) ∧
    (∀ a : Int, ¬ (0 ≤ a ∧ a ≤ 255) ∨ size = 0 ∨ 252 < size →
      Refused b (-1) (sendUserData ((busLink k env).ops purge) b a data size)) := by
  constructor
  · intro n h1 h2
    obtain ⟨d', h3, h4⟩ := copyInto_ok (frameNew TYPE_LONG).data data size h2 hd
    have hp := packs_long 0x53 n 0x51 d' size h2
    rw [h4] at hp
    refine bus_finish k env ho b hp ⟨(by decide : (0x53 : Byte) ∈ dataCodes), by simp; omega⟩ purge ?_
    unfold sendUserData
    rw [if_neg (by rw [byte_primary]; decide), ofNat_byte, if_neg (by omega)]
    simp only [h3, ok_bind]
    rfl
  · intro a h
    unfold sendUserData Refused
    by_cases ha : 0 ≤ a ∧ a ≤ 255
    · rcases h with h | h
      · exact absurd ha h
      · rw [if_neg (by rw [(isPrimary_iff a).mpr ha]; decide), if_pos (by omega)]
    · rw [if_pos (isPrimary_false a ha)]

/-- C54: `mbus_send_select_frame` sends a selection telegram (SND_UD with FCB to address FD, CI 52, 8 bytes) or refuses a text
that is not a secondary address.  Its content is the eight bytes the text stands for, provided that the identification digits are
decimal or F (missing: hexadecimal identification digits A..E, for which C50_hex_digit_violation shows wrong content). -/
theorem C54_select_partial (k : Kind) (env : Env) (ho : IsOpen k env) (purge : Int) (b : Bus) (text : List Byte) :
    (text.length = 16 ∧ (∀ c ∈ text, IsHex c) →
      ∃ p, p.length = 8 ∧ Transmitted env b (.data 0x73 0xFD 0x52 p) (sendSelect ((busLink k env).ops purge) b text) ∧
        ((∀ c ∈ text.take 8, IdDigit c) → p = addressBytes text)) ∧
    (¬ (text.length = 16 ∧ ∀ c ∈ text, IsHex c) → Refused b (-1) (sendSelect ((busLink k env).ops purge) b text)) := by
  constructor
  · rintro ⟨hl, hx⟩
    obtain ⟨d, h1, h2⟩ := selectPack_eq (frameNew TYPE_LONG) text hl hx
    have hlen : (selBytes text).length = 8 := by rw [← h2]; simp
    refine ⟨selBytes text, hlen, ?_, fun hid => selBytes_eq text hl hx hid⟩
    have hp := packs_long 0x73 0xFD 0x52 d 8 (by omega)
    rw [h2] at hp
    refine bus_finish k env ho b hp ⟨(by decide : (0x73 : Byte) ∈ dataCodes), by omega⟩ purge ?_
    unfold sendSelect
    rw [h1]
    simp only [ok_bind, show ¬ ((0 : Int) = -1) by decide, if_false]
  · intro h
    have : isSecondaryAddress text = false := by
      cases hs : isSecondaryAddress text with
      | false => rfl
      | true => exact absurd (((C52_address_validation text 0).1).mp hs) h
    unfold sendSelect Refused
    rw [selectPack_bad _ _ this]
    simp only [ok_bind, if_true]

/-- C54: what `Transmitted` sends is accepted by `mbus_parse` on the other side and delivers the same telegram. -/
theorem C54_receiver_accepts (env : Env) (b : Bus) (t : Telegram) (res : C (Int × Bus)) (h : Transmitted env b t res) (g : Frame) :
    ∃ r b' g', res = .ok (r, b') ∧ b'.sent = b.sent ++ [t.wire] ∧ mbusParse g t.wire t.wire.length = .ok (0, g') ∧ Carries g' t := by
  obtain ⟨r, b', h1, h2, h3, _⟩ := h
  obtain ⟨g', h4⟩ := (C03_parse_accepts_iff g t.wire).mpr (by
    cases t with
    | ack => exact .inl rfl
    | short c a => exact .inr ⟨_, by simp, h2, rfl⟩
    | data c a ci p => exact .inr ⟨_, by simp, h2, rfl⟩)
  refine ⟨r, b', g', h1, h3, h4, ?_⟩
  rcases C03_parse_delivers g g' t.wire h4 with ⟨a, c⟩ | ⟨u, a, c, d, e, _⟩
  · cases t with
    | ack => exact c
    | short _ _ => simp [Telegram.wire] at a
    | data _ _ _ _ => simp [Telegram.wire] at a
  · cases t with
    | ack => cases u <;> simp [Telegram.wire] at a d
    | short _ _ => rw [wire_inj _ _ d]; exact e
    | data _ _ _ _ => rw [wire_inj _ _ d]; exact e

/-- C54: on a serial descriptor that is not a terminal every command fails without transmitting, whatever its arguments. -/
theorem C54_not_a_terminal (env : Env) (hc : env.tty = false) (purge : Int) (b : Bus) (a x : Int) (drain : Bool)
    (data : List Byte) (size : Nat) (hd : size ≤ data.length) (text : List Byte) :
    FailedQuietly b (sendRequest ((busLink .serial env).ops purge) b a) ∧
    FailedQuietly b (sendPing ((busLink .serial env).ops purge) b a drain) ∧
    FailedQuietly b (sendBaud ((busLink .serial env).ops purge) b a x) ∧
    FailedQuietly b (sendAppReset ((busLink .serial env).ops purge) b a x) ∧
    FailedQuietly b (sendUserData ((busLink .serial env).ops purge) b a data size) ∧
    FailedQuietly b (sendSelect ((busLink .serial env).ops purge) b text) := by
  have e : ∀ f, ((busLink .serial env).ops purge).send b f = _ := bus_send_closed env hc b
  have m1 : FailedQuietly b (.ok (-1, b)) := ⟨-1, rfl, by decide⟩
  have p1 : FailedQuietly b (.ok (1, b)) := ⟨1, rfl, by decide⟩
  refine ⟨?_, ?_, ?_, ?_, ?_, ?_⟩
  · unfold sendRequest
    split
    · exact m1
    · simp only [e, ok_bind, if_true]; exact m1
  · unfold sendPing
    split
    · exact p1
    · simp only [e, ok_bind, if_true]; exact m1
  · unfold sendBaud
    split
    · exact m1
    · cases baudCode x with
      | none => exact m1
      | some ci => simp only [e, ok_bind, if_true]; exact m1
  · unfold sendAppReset
    split
    · exact m1
    · split
      · exact m1
      · have hw : ∃ d, (frameNew TYPE_LONG).data.wr 0 (UInt8.ofNat x.toNat) = .ok d := by
          obtain ⟨a0, a1, a2, a3, a4, a5, a6, a7, t, ht, hd⟩ := split8 (frameNew TYPE_LONG).data
          rw [hd]
          exact ⟨⟨UInt8.ofNat x.toNat :: a1 :: a2 :: a3 :: a4 :: a5 :: a6 :: a7 :: t, ht⟩, rfl⟩
        obtain ⟨d, hw⟩ := hw
        by_cases h0 : x ≥ 0
        · simp only [if_pos h0, hw, e, ok_bind, if_true]; exact m1
        · simp only [if_neg h0, e, ok_bind, if_true]; exact m1
  · unfold sendUserData
    split
    · exact m1
    · split
      · exact m1
      · obtain ⟨d', h3, _⟩ := copyInto_ok (frameNew TYPE_LONG).data data size (by omega) hd
        simp only [h3, e, ok_bind, if_true]; exact m1
  · unfold sendSelect
    cases hs : isSecondaryAddress text with
    | false => rw [selectPack_bad _ _ hs]; simp only [ok_bind, if_true]; exact m1
    | true =>
      obtain ⟨hl, hx⟩ := ((C52_address_validation text 0).1).mp hs
      obtain ⟨d, h1, _⟩ := selectPack_eq (frameNew TYPE_LONG) text hl hx
      rw [h1]
      simp only [ok_bind, show ¬ ((0 : Int) = -1) by decide, if_false, e, if_true]; exact m1

/-- a TCP gateway that answers nothing and takes everything -/
def quiet : Env := { respond := fun _ => [], junk := fun _ => 0, wret := fun _ n => n, tty := true }

/-! The C54 theorems on a bus that is open, with telegrams sent before. -/

example := C54_request .serial quiet (.inr rfl) PURGE_M2S ⟨[], [[0xE5]]⟩
example := C54_ping .serial quiet (.inr rfl) PURGE_M2S ⟨[], [[0xE5]]⟩ true
example := C54_baudrate .tcp quiet (.inl rfl) PURGE_M2S ⟨[], [[0xE5]]⟩
example := C54_application_reset .tcp quiet (.inl rfl) PURGE_M2S ⟨[], [[0xE5]]⟩
example := C54_user_data .tcp quiet (.inl rfl) PURGE_M2S ⟨[], [[0xE5]]⟩ [1, 2, 3] 2 (by decide)
example := (C54_select_partial .tcp quiet (.inl rfl) PURGE_M2S ⟨[], [[0xE5]]⟩ (cs! "12345678FFFFFFFF")).1 ⟨rfl, by decide⟩
example := C54_receiver_accepts quiet ⟨[], []⟩ _ _ ((C54_request .tcp quiet (.inl rfl) PURGE_M2S ⟨[], []⟩).1 5) Frame.zero

example : (sendRequest ((busLink .tcp quiet).ops 1) ⟨[], []⟩ 5).toOption.map (fun q => (q.1, q.2.sent)) =
    some (0, [[0x10, 0x5B, 5, 0x60, 0x16]]) := by decide +kernel

example : IsOpen .tcp quiet ∧ IsOpen .serial quiet := ⟨.inl rfl, .inr rfl⟩

/-! ### C55 -/

/-- C55 (what holds): a new address outside 0..252 is refused without transmitting; otherwise exactly one telegram is sent to
the old address, with payload 01 7A and the new address.  (The documented limit of 250 is missing: see below.) -/
theorem C55_set_primary_partial (k : Kind) (env : Env) (ho : IsOpen k env) (purge : Int) (b : Bus) :
    (∀ old new : Byte, new.toNat ≤ 252 → Transmitted env b (.data 0x53 old 0x51 [0x01, 0x7A, new])
        (setPrimaryAddress ((busLink k env).ops purge) b old.toNat new.toNat)) ∧
    (∀ old new : Int, ¬ (0 ≤ new ∧ new ≤ 252) ∨ ¬ (0 ≤ old ∧ old ≤ 255) →
        Refused b (-1) (setPrimaryAddress ((busLink k env).ops purge) b old new)) := by
  constructor
  · intro old new h
    have := (C54_user_data k env ho purge b [0x01, 0x7A, new] 3 (by simp)).1 old (by omega) (by omega)
    unfold setPrimaryAddress
    rw [if_neg (by rw [byte_primary]; decide), if_neg (by omega)]
    have e : ucharOfInt (new.toNat : Int) = new := by
      unfold ucharOfInt
      have := new.toNat_lt
      rw [Int.emod_eq_of_lt (by omega) (by omega), ofNat_byte]
    rw [e]
    exact this
  · intro old new h
    unfold setPrimaryAddress
    by_cases hn : 0 ≤ new ∧ new ≤ 255
    · rw [if_neg (by rw [(isPrimary_iff new).mpr hn]; decide)]
      by_cases h2 : new = 0xFD ∨ new = 0xFE ∨ new = 0xFF
      · rw [if_pos h2]; rfl
      · rw [if_neg h2]
        exact (C54_user_data k env ho purge b [0x01, 0x7A, ucharOfInt new] 3 (by simp)).2 old (.inl (by omega))
    · rw [if_pos (isPrimary_false new hn)]; rfl

example := (C55_set_primary_partial .tcp quiet (.inl rfl) PURGE_M2S ⟨[], [[0xE5]]⟩).1 5 250 (by decide)

/-- C55 is violated at the documented limit: 251 and 252 are not assignable addresses (0..250), yet the command is sent. -/
theorem C55_reserved_address_violation (k : Kind) (env : Env) (ho : IsOpen k env) (purge : Int) (b : Bus) :
    Transmitted env b (.data 0x53 1 0x51 [0x01, 0x7A, 251]) (setPrimaryAddress ((busLink k env).ops purge) b 1 251) ∧
    Transmitted env b (.data 0x53 1 0x51 [0x01, 0x7A, 252]) (setPrimaryAddress ((busLink k env).ops purge) b 1 252) :=
  ⟨(C55_set_primary_partial k env ho purge b).1 1 251 (by decide), (C55_set_primary_partial k env ho purge b).1 1 252 (by decide)⟩

end Mbus
