import Verif.Lemmas.Transport
/-
Property theorems C40-C42 (receiving and sending one frame over TCP or the serial line).  Statements use the model functions
`tcpRecv`, `serialRecv`, `sendFrame`, the event type `Ev` and the specification in Verif/Spec/{Link,Transport}.lean.
-/
namespace Mbus
open Spec

theorem rbuf_nil : rbuf [] = List.replicate PACKET_BUFF_SIZE 0 := rfl

/-! ### C40 -/

/-- C40 (delivery): whatever the chunking of the telegram's bytes, wherever EINTR strikes and whatever the frame object held
before, the receive returns OK with exactly that telegram and leaves exactly the bytes behind it (`es'`) unread. -/
theorem C40_tcp_recv_delivers (es es' : List Ev) (k : Nat) (t : Telegram) (f : Frame) (hl : t.Legal)
    (h : Feeds .eintr k es t.wire es') :
    ∃ f', tcpRecv es f = .ok ⟨RECV_OK, f', es', some t.wire⟩ ∧ Carries f' t := by
  have hw : t.wire ≠ [] := by cases t <;> simp [Telegram.wire]
  exact tcp_complete (evWeight es) es [] f k t.wire es' t (Nat.le_refl _) hl rfl hw h

/-- C40 (every outcome): for any script at all, the receive consumes some bytes `bs` of the script (EINTR aside) and
* returns OK only if `bs` is one whole legal telegram, which the frame then carries;
* returns INVALID only if no telegram starts with `bs`;
* otherwise returns TIMEOUT/ERROR/RESET because the next read (EINTR aside) times out, fails or reports the end of the stream,
  and no whole telegram had been received.
In particular it never reads past the end of the first telegram. -/
theorem C40_tcp_recv_outcome (es : List Ev) (f : Frame) :
    ∃ out bs k es1, tcpRecv es f = .ok out ∧ Feeds .eintr k es bs es1 ∧
      ((out.code = RECV_OK ∧ out.rest = es1 ∧ out.event = some bs ∧ ∃ t : Telegram, t.Legal ∧ bs = t.wire ∧ Carries out.frame t) ∨
       (out.code = RECV_INVALID ∧ out.rest = es1 ∧ out.event = some bs ∧ Hopeless bs ∧ NoTelegram bs) ∨
       (out.event = none ∧ NoTelegram bs ∧ ∃ j,
          (out.code = RECV_TIMEOUT ∧ es1 = List.replicate j .eintr ∧ out.rest = []) ∨
          (out.code = RECV_TIMEOUT ∧ es1 = List.replicate j .eintr ++ .eagain :: out.rest) ∨
          (out.code = RECV_ERROR ∧ es1 = List.replicate j .eintr ++ .err :: out.rest) ∨
          (out.code = RECV_RESET ∧ es1 = List.replicate j .eintr ++ .data [] :: out.rest))) := by
  obtain ⟨out, more, k, es1, h1, h2, _, h4⟩ := tcp_sound (evWeight es) es [] f (Nat.le_refl _) (.inl rfl)
  refine ⟨out, more, k, es1, h1, h2, ?_⟩
  rcases h4 with ⟨a, _, b⟩ | ⟨a, _, b⟩ | b
  · exact .inl ⟨a, b⟩
  · exact .inr (.inl ⟨a, b⟩)
  · exact .inr (.inr b)

/-- a two-record response telegram, delivered as three chunks with an interruption and followed by the next telegram -/
def respT : Telegram := .data 0x08 5 0x72 [1, 2, 3]
example : respT.Legal ∧ ∃ es', Feeds .eintr 1
    [.data [0x68, 6], .eintr, .data [6, 0x68, 8, 5, 0x72], .data [1, 2, 3, 0x85, 0x16, 0xE5, 0x10]] respT.wire es' ∧
    es' = [.data [0xE5, 0x10]] := by
  refine ⟨by decide, [.data [0xE5, 0x10]], ?_, rfl⟩
  exact .whole [0x68, 6] (by simp) (.skip (bs := [6, 0x68, 8, 5, 0x72, 1, 2, 3, 0x85, 0x16]) (by simp)
    (.whole [6, 0x68, 8, 5, 0x72] (by simp) (.part [1, 2, 3, 0x85, 0x16] [0xE5, 0x10] [] (by simp) (by simp))))

/-! ### C41 -/

/-- C41 (delivery): on an open terminal, any chunking of a telegram with at most two empty reads after the first byte is
received as exactly that telegram; the bytes behind it (`es'`) stay unread. -/
theorem C41_serial_recv_delivers (es es' : List Ev) (k : Nat) (t : Telegram) (f : Frame) (hl : t.Legal)
    (h : Feeds (.data []) k es t.wire es') (hk : k ≤ 2) (hfirst : es.head? ≠ some (.data [])) :
    ∃ f', serialRecv true es f = .ok ⟨RECV_OK, f', es', some t.wire⟩ ∧ Carries f' t := by
  have hw : t.wire ≠ [] := by cases t <;> simp [Telegram.wire]
  exact serial_complete (evWeight es) es [] f k 0 t.wire es' t (Nat.le_refl _) hl rfl hw h hk (.inr hfirst)

/-- C41 (every outcome): for any script, the receive consumes some bytes `bs` with `k` empty reads between them and
* returns OK only if `bs` is one whole legal telegram, which the frame then carries, and `k ≤ 2`;
* returns INVALID only if no telegram starts with `bs`, or the third empty read came before the telegram was complete
  (a line that stays silent counts as empty reads);
* returns TIMEOUT exactly when the first read gave nothing;
* returns ERROR only if a read failed (here EINTR and EAGAIN are failures). -/
theorem C41_serial_recv_outcome (es : List Ev) (f : Frame) :
    ∃ out bs k es1, serialRecv true es f = .ok out ∧ Feeds (.data []) k es bs es1 ∧
      ((out.code = RECV_OK ∧ k ≤ 2 ∧ out.rest = es1 ∧ out.event = some bs ∧
          ∃ t : Telegram, t.Legal ∧ bs = t.wire ∧ Carries out.frame t) ∨
       (out.code = RECV_INVALID ∧ k ≤ 2 ∧ out.rest = es1 ∧ out.event = some bs ∧ Hopeless bs ∧ NoTelegram bs) ∨
       (out.code = RECV_INVALID ∧ bs ≠ [] ∧ out.event = some bs ∧ NoTelegram bs ∧ ∃ j,
          (k + j = 3 ∧ es1 = List.replicate j (.data []) ++ out.rest) ∨
          (k + j < 3 ∧ es1 = List.replicate j (.data []) ∧ out.rest = [])) ∨
       (out.code = RECV_TIMEOUT ∧ bs = [] ∧ out.event = none ∧ (es1 = .data [] :: out.rest ∨ (es1 = [] ∧ out.rest = []))) ∨
       (out.code = RECV_ERROR ∧ out.event = none ∧ NoTelegram bs ∧ ∃ j e, k + j ≤ 2 ∧ (e = .eintr ∨ e = .eagain ∨ e = .err) ∧
          es1 = List.replicate j (.data []) ++ e :: out.rest)) := by
  obtain ⟨out, more, k, es1, h1, h2, _, h4⟩ := serial_sound _ es [] f 0 (Nat.le_refl _) (.inl rfl) (by omega)
  refine ⟨out, more, k, es1, h1, h2, ?_⟩
  rcases h4 with ⟨a, _, b, c⟩ | ⟨a, _, b, c⟩ | b | b | ⟨a, b, c, j, e, d, g, h⟩
  · exact .inl ⟨a, by omega, c⟩
  · exact .inr (.inl ⟨a, by omega, c⟩)
  · exact .inr (.inr (.inl b))
  · exact .inr (.inr (.inr (.inl b)))
  · refine .inr (.inr (.inr (.inr ⟨a, b, c, j, e, d, ?_, h⟩)))
    cases e with
    | data c => exact absurd rfl (g c)
    | eintr => exact .inl rfl
    | eagain => exact .inr (.inl rfl)
    | err => exact .inr (.inr rfl)

/-- C41: a silent line gives TIMEOUT (with nothing reported to the callback). -/
theorem C41_serial_silent_timeout (es : List Ev) (f : Frame) (h : es = [] ∨ es.head? = some (.data [])) :
    ∃ f', serialRecv true es f = .ok ⟨RECV_TIMEOUT, f', es.tail, none⟩ := by
  rcases h with rfl | h
  · obtain ⟨f', he⟩ := serial_zero (bs := []) (.inl rfl) f 0 [] [] (.inr ⟨rfl, rfl⟩)
    rw [if_pos rfl] at he
    exact ⟨_, he⟩
  · cases es with
    | nil => simp at h
    | cons a es =>
      simp at h
      subst h
      obtain ⟨f', he⟩ := serial_zero (bs := []) (.inl rfl) f 0 (.data [] :: es) es (.inl rfl)
      rw [if_pos rfl] at he
      exact ⟨_, he⟩

/-- C41: three empty reads inside an incomplete telegram give INVALID: the bytes before them are the start `bs` of a telegram
(fed in any chunking with `k` of the empty reads between them) and the remaining `3 - k` empty reads follow. -/
theorem C41_serial_third_empty_invalid (es : List Ev) (k : Nat) (bs more : List Byte) (rest : List Ev) (t : Telegram) (f : Frame)
    (hl : t.Legal) (hpre : bs ++ more = t.wire) (hm : more ≠ []) (hb : bs ≠ []) (hk : k ≤ 2) (hfirst : es.head? ≠ some (.data []))
    (h : Feeds (.data []) k es bs (List.replicate (3 - k) (.data []) ++ rest)) :
    ∃ f', serialRecv true es f = .ok ⟨RECV_INVALID, f', rest, some bs⟩ := by
  obtain ⟨f', h'⟩ := serial_stall (evWeight es) es [] f k 0 bs rest t more (Nat.le_refl _) hl hpre hm h (by omega) (by simpa using hb) (.inr hfirst)
  exact ⟨f', h'⟩

example : ∃ es', Feeds (.data []) 2
    [.data [0x68, 6], .data [], .data [6, 0x68, 8, 5, 0x72], .data [], .data [1, 2, 3, 0x85, 0x16, 0xE5, 0x10]] respT.wire es' ∧
    es' = [.data [0xE5, 0x10]] := by
  refine ⟨[.data [0xE5, 0x10]], ?_, rfl⟩
  exact .whole [0x68, 6] (by simp) (.skip (bs := [6, 0x68, 8, 5, 0x72, 1, 2, 3, 0x85, 0x16]) (by simp)
    (.whole [6, 0x68, 8, 5, 0x72] (by simp) (.skip (by simp) (.part [1, 2, 3, 0x85, 0x16] [0xE5, 0x10] [] (by simp) (by simp)))))

/-! ### C42 -/

/-- C42: no run of either receive function touches memory outside its 2048-byte buffer or has other undefined behaviour (the
result is always `ok`), no run takes more than 261 bytes, and the buffer-size guard never fires: ERROR comes from a failed read
only (and, on the serial line, from a closed terminal). Both functions terminate on every script (they are total). -/
theorem C42_recv_bounded (es : List Ev) (f : Frame) :
    (∃ out bs k es1, tcpRecv es f = .ok out ∧ Feeds .eintr k es bs es1 ∧ bs.length ≤ 261 ∧
      (out.code = RECV_ERROR → ∃ j, es1 = List.replicate j .eintr ++ .err :: out.rest)) ∧
    (∃ out bs k es1, serialRecv true es f = .ok out ∧ Feeds (.data []) k es bs es1 ∧ bs.length ≤ 261 ∧
      (out.code = RECV_ERROR → ∃ j e, es1 = List.replicate j (.data []) ++ e :: out.rest ∧ ∀ c, e ≠ .data c)) ∧
    serialRecv false es f = .ok ⟨RECV_ERROR, f, es, none⟩ := by
  refine ⟨?_, ?_, rfl⟩
  · obtain ⟨out, more, k, es1, h1, h2, h3, h4⟩ := tcp_sound (evWeight es) es [] f (Nat.le_refl _) (.inl rfl)
    refine ⟨out, more, k, es1, h1, h2, h3, fun h => ?_⟩
    rcases h4 with ⟨a, _⟩ | ⟨a, _⟩ | ⟨_, _, j, ⟨a, _⟩ | ⟨a, _⟩ | ⟨a, b⟩ | ⟨a, _⟩⟩
    · exact absurd (a ▸ h) (by decide)
    · exact absurd (a ▸ h) (by decide)
    · exact absurd (a ▸ h) (by decide)
    · exact absurd (a ▸ h) (by decide)
    · exact ⟨j, b⟩
    · exact absurd (a ▸ h) (by decide)
  · obtain ⟨out, more, k, es1, h1, h2, h3, h4⟩ := serial_sound _ es [] f 0 (Nat.le_refl _) (.inl rfl) (by omega)
    refine ⟨out, more, k, es1, h1, h2, h3, fun h => ?_⟩
    rcases h4 with ⟨a, _⟩ | ⟨a, _⟩ | ⟨a, _⟩ | ⟨a, _⟩ | ⟨_, _, _, j, e, _, b, c⟩
    · exact absurd (a ▸ h) (by decide)
    · exact absurd (a ▸ h) (by decide)
    · exact absurd (a ▸ h) (by decide)
    · exact absurd (a ▸ h) (by decide)
    · exact ⟨j, e, c, b⟩

/-- the longest telegram has 261 bytes, so the bound of C42 is attained -/
example : ∃ t : Telegram, t.Legal ∧ t.wire.length = 261 :=
  ⟨.data 0x08 0 0x72 (List.replicate 252 0), by decide +kernel, by decide +kernel⟩

/-! Direct instances of the theorems above. -/

/-- a telegram in three segments, interrupted once; two bytes of the next one stay queued -/
example (f : Frame) := C40_tcp_recv_delivers
    [.data [0x68, 6], .eintr, .data [6, 0x68, 8, 5, 0x72], .data [1, 2, 3, 0x85, 0x16, 0xE5, 0x10]] [.data [0xE5, 0x10]] 1 respT f (by decide)
    (.whole [0x68, 6] (by simp) (.skip (bs := [6, 0x68, 8, 5, 0x72, 1, 2, 3, 0x85, 0x16]) (by simp)
      (.whole [6, 0x68, 8, 5, 0x72] (by simp) (.part [1, 2, 3, 0x85, 0x16] [0xE5, 0x10] [] (by simp) (by simp)))))
example (f : Frame) := C41_serial_recv_delivers
    [.data [0x68, 6], .data [], .data [6, 0x68, 8, 5, 0x72], .data [1, 2, 3, 0x85, 0x16, 0xE5, 0x10]] [.data [0xE5, 0x10]] 1 respT f (by decide)
    (.whole [0x68, 6] (by simp) (.skip (bs := [6, 0x68, 8, 5, 0x72, 1, 2, 3, 0x85, 0x16]) (by simp)
      (.whole [6, 0x68, 8, 5, 0x72] (by simp) (.part [1, 2, 3, 0x85, 0x16] [0xE5, 0x10] [] (by simp) (by simp)))))
    (by decide) (by simp)
example (f : Frame) := C41_serial_silent_timeout [.data [], .data [0xE5]] f (by simp)

end Mbus
