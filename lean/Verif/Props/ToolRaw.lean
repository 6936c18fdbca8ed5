import Verif.Props.ToolRead
/-
Property theorem C93: the tool that sends raw telegrams.
-/
namespace Mbus
open Spec

/-! ### C93 -/

theorem hex2bin_odd (dst src bs : List Byte) (n : Nat) (hd : n ≤ dst.length) (h : HexText src bs) (hb : bs.length ≤ n) :
    ∃ d, hex2bin dst n (src ++ List.replicate 1 0) = .ok (d, bs.length) ∧ d.take bs.length = bs := by
  unfold hex2bin memset0
  rw [if_pos hd]
  simp only [ok_bind]
  rw [hexLoop_text n src bs _ h 0 (List.replicate n 0 ++ dst.drop n) (by omega) (by simp)]
  refine ⟨_, by simp only [List.replicate, hexLoop, Nat.zero_add]; rfl, by simp⟩

theorem rawRead_ok (uninit : Buf 4096) (file : List Byte) : ∃ d n, rawRead uninit file = .ok (d, n) ∧ n ≤ d.length := by
  obtain ⟨d, n, h1, h2, h3, _⟩ := C24_bounds uninit.bytes (file.take 4096 ++ List.replicate (4096 - file.length) 0) 4096 (by rw [uninit.size_eq]; decide)
  exact ⟨d, n, h1, by rw [h3, uninit.size_eq]; exact h2⟩

/-- What is read from a hexadecimal text of at most 4096 characters. -/
theorem rawRead_text (uninit : Buf 4096) (file bs : List Byte) (h : HexText file bs) (hf : file.length ≤ 4096) :
    ∃ d, rawRead uninit file = .ok (d, bs.length) ∧ d.take bs.length = bs := by
  have hl : ∀ {s b}, HexText s b → b.length ≤ s.length := by
    intro s b h
    induction h with
    | nil => simp
    | space _ _ ih => simp; omega
    | byte _ _ _ ih => simp; omega
  have hb := hl h
  unfold rawRead
  rw [List.take_of_length_le hf]
  have hd : 4096 ≤ uninit.bytes.length := by rw [uninit.size_eq]; decide
  match hk : 4096 - file.length with
  | 0 => rw [List.replicate_zero, List.append_nil]; exact C24_inverse _ _ _ _ hd h (by omega)
  | 1 =>
    exact hex2bin_odd _ _ _ _ hd h (by omega)
  | k + 2 => exact C25_stops_partial _ _ _ (List.replicate k 0) _ hd h (by omega) 0 0 (by decide) (by decide) (.inl ⟨by decide, by decide⟩)

/-- C93: whatever the handle does and the file contains, the tool prints nothing; nothing beyond the selection is sent unless the
selection found exactly one meter and the bytes of the file are one telegram, which is then sent once; the exit status is 0 iff it
was answered. -/
theorem C93_raw_send {σ : Type} (uninit : Buf 4096) (junk : Frame) (o : Ops σ) (s : σ) (addr file : List Byte) (e : Exit (σ × List Act))
    (h : rawSendTool uninit junk o.logged (s, []) addr file = .ok e) :
    e.out = [] ∧
    ((∃ r, AddressMask addr ∧ r ≠ 1 ∧ Selection addr r e.state.2 ∧ e.code = 1) ∨
     ∃ dest sel l d n, Reached addr dest sel ∧ e.state.2 = sel ++ l ∧ rawRead uninit file = .ok (d, n) ∧ RawSent (d.take n) e.code l) := by
  unfold rawSendTool at h
  rw [bind_eq_ok] at h
  obtain ⟨⟨t, s0, log0⟩, h0, h⟩ := h
  have hreach : (t = none ∧ ∃ r, AddressMask addr ∧ r ≠ 1 ∧ Selection addr r log0) ∨ ∃ dest, t = some dest ∧ Reached addr dest log0 := by
    rcases reach_log o s [] addr t _ h0 with ⟨hm, l, r, e3, hs, ha⟩ | ⟨hm, ha, hs⟩
    · simp only [List.nil_append] at e3
      subst e3
      by_cases hr1 : r = 1
      · subst hr1
        exact .inr ⟨0xFD, by simpa using ha, .secondary _ hm hs⟩
      · exact .inl ⟨by rw [ha, if_neg hr1], r, hm, hr1, hs⟩
    · cases hs
      exact .inr ⟨_, ha, .primary hm⟩
  rcases hreach with ⟨rfl, r, hm, hr1, hs⟩ | ⟨dest, rfl, hre⟩
  · simp only at h
    cases h
    exact ⟨rfl, .inl ⟨r, hm, hr1, hs, rfl⟩⟩
  simp only at h
  obtain ⟨d, n, hr, hn⟩ := rawRead_ok uninit file
  have key : ∀ code l, RawSent (d.take n) code l → ∃ dest sel l' d' n', Reached addr dest sel ∧ log0 ++ l = sel ++ l' ∧ rawRead uninit file = .ok (d', n') ∧
      RawSent (d'.take n') code l' := fun code l hrs => ⟨dest, log0, l, d, n, hre, rfl, hr, hrs⟩
  rw [hr, ok_bind] at h
  simp only at h
  rw [parse_take _ _ _ hn] at h
  have hlen : (d.take n).length = n := by simp; omega
  obtain ⟨req, hp, hc⟩ := parse_code junk (d.take n)
  rw [hlen] at hp
  rw [hp, ok_bind] at h
  simp only at h
  by_cases h0 : code (d.take n) = 0
  · rw [if_neg (by rw [h0]; decide), if_neg (by rw [h0]; decide), logged_send_eq] at h
    have hraw : RawFrame (d.take n) req := by
      rcases hc h0 with ⟨a, b, _⟩ | ⟨t, a, b, c, e, _⟩
      · exact .inl ⟨a, b⟩
      · exact .inr ⟨t, a, b, c, e⟩
    cases hs : o.send s0 req with
    | error e => rw [hs] at h; cases h
    | ok q =>
      obtain ⟨c, f', s1⟩ := q
      rw [hs] at h
      simp only [ok_bind] at h
      by_cases hcc : c = -1
      · rw [if_pos hcc] at h
        cases h
        subst hcc
        exact ⟨rfl, .inr (key _ _ (.sendFailed req hraw))⟩
      rw [if_neg hcc, logged_recv_eq] at h
      cases hq : o.recv s1 Frame.zero with
      | error e => rw [hq] at h; cases h
      | ok q =>
        obtain ⟨rc, g, s2⟩ := q
        rw [hq] at h
        simp only [ok_bind] at h
        by_cases hrc : rc ≠ RECV_OK
        · rw [if_pos hrc] at h
          cases h
          exact ⟨rfl, .inr (by rw [List.append_assoc]; exact key _ _ (.noAnswer req c rc g hraw hcc hrc))⟩
        · rw [if_neg hrc] at h
          cases h
          have hrc : rc = RECV_OK := Decidable.byContradiction hrc
          subst hrc
          exact ⟨rfl, .inr (by rw [List.append_assoc]; exact key _ _ (.answered req c g hraw hcc))⟩
  · have hno : ¬ TelegramBytes (d.take n) := by
      intro ht
      have := (C03_parse_accepts_iff junk (d.take n)).mpr ht
      obtain ⟨g, hg⟩ := this
      rw [hlen, hp] at hg
      simp only [Except.ok.injEq, Prod.mk.injEq] at hg
      exact h0 hg.1
    by_cases hneg : code (d.take n) < 0
    · rw [if_pos hneg] at h
      cases h
      refine ⟨rfl, .inr ?_⟩
      have := key 1 [] (.notATelegram hno)
      simpa using this
    · have hpos : code (d.take n) > 0 := by generalize code (d.take n) = z at h0 hneg; omega
      rw [if_neg hneg, if_pos hpos] at h
      cases h
      refine ⟨rfl, .inr ?_⟩
      have := key 1 [] (.notATelegram hno)
      simpa using this

theorem packs_parsed (junk f : Frame) (t : Spec.Telegram) (hl : t.Legal) (h : mbusParse junk t.wire t.wire.length = .ok (0, f)) : Packs f t := by
  obtain ⟨g, k1, k2⟩ := parse_code junk t.wire
  rw [code_wire t hl] at k1 k2
  rw [k1] at h
  have hg : g = f := by cases h; rfl
  clear h
  subst hg
  rcases k2 rfl with ⟨a, b, c⟩ | ⟨u, a, b, c, d, e⟩
  · by_cases hk : t = .ack
    · subst hk
      refine packBytes_wire g _ hl b ⟨fun h => absurd rfl h, c, ?_⟩
      have : g.type = 1 := b
      intro h
      rw [this] at h
      exact absurd h (by decide)
    · exact absurd a (wire_head_ne t hk)
  · have hu : u = t := wire_inj u t c.symm
    subst hu
    have hs : StartStop g u := by
      cases u with
      | ack => exact absurd rfl a
      | short c x =>
        have : g.type = 2 := d.1
        rcases e with e | e | e | e <;> simp_all [StartStop]
      | data c x ci p =>
        have : g.type = if p = [] then 3 else 4 := d.1
        rcases e with e | e | e | e <;> simp_all [StartStop] <;> split at this <;> simp_all
    exact packBytes_wire g u b d (hs_of g u d hs)

/-- sending the telegram read from the file -/
theorem raw_step (uninit : Buf 4096) (junk : Frame) (k : Kind) (env : Env) (ho : IsOpen k env) (hw : Writable env) (purge : Int) (hp : purge ≠ PURGE_S2M)
    (before after : List (List Byte)) (addr : List Byte) (dest : Byte) (hreach : Reachable env addr before dest after)
    (t : Spec.Telegram) (hl : t.Legal) (file d : List Byte) (hr : rawRead uninit file = .ok (d, t.wire.length)) (ht : d.take t.wire.length = t.wire) :
    rawSendTool uninit junk ((busLink k env).ops purge) ⟨[], before⟩ addr file =
      (recvFrame (busLink k env) purge ⟨env.respond (after ++ [t.wire]), after ++ [t.wire]⟩ Frame.zero >>= fun q =>
        if q.1 ≠ RECV_OK then .ok ⟨1, [], q.2.2⟩ else .ok ⟨0, [], q.2.2⟩) := by
  have hlen : t.wire.length ≤ d.length := by
    have := congrArg List.length ht
    simp at this
    omega
  obtain ⟨req, hpar, _⟩ := parse_code junk t.wire
  rw [code_wire t hl] at hpar
  have hpk := packs_parsed junk req t hl hpar
  have hs := bus_send k env ho ⟨[], after⟩ req t hl hpk
  rw [hw, if_pos rfl] at hs
  unfold rawSendTool
  rw [reach_wire k env ho hw purge hp addr before dest after hreach, ok_bind]
  simp only
  rw [hr, ok_bind]
  simp only
  rw [parse_take _ _ _ hlen, ht, hpar, ok_bind]
  simp only
  rw [if_neg (by decide), if_neg (by decide)]
  show ((busLink k env).send ⟨[], after⟩ req >>= _) = _
  rw [hs, ok_bind]
  simp only
  rw [if_neg (by decide)]
  rfl

/-- C93 on the wire: a meter named by its primary or secondary address can be reached, and the file is a hexadecimal text (any case,
white space between the bytes) of at most 4096 characters of any telegram.  Then exactly the bytes of that telegram are transmitted
after the selection; the exit status is 0 if a meter answers with any telegram (in chunks of any size), 1 if nobody answers. -/
theorem C93_wire (uninit : Buf 4096) (junk : Frame) (k : Kind) (env : Env) (ho : IsOpen k env) (hw : Writable env) (purge : Int) (hp : purge ≠ PURGE_S2M)
    (before after : List (List Byte)) (addr : List Byte) (dest : Byte) (hreach : Reachable env addr before dest after)
    (t : Spec.Telegram) (hl : t.Legal) (file : List Byte) (hf : HexText file t.wire) (hn : file.length ≤ 4096) :
    (∀ (u : Spec.Telegram) (cs : List (List Byte)), u.Legal → FromSlave u → Chunks cs → cs.flatten = u.wire → env.respond (after ++ [t.wire]) = evs cs →
      rawSendTool uninit junk ((busLink k env).ops purge) ⟨[], before⟩ addr file = .ok ⟨0, [], ⟨[], after ++ [t.wire]⟩⟩) ∧
    (env.respond (after ++ [t.wire]) = [] →
      rawSendTool uninit junk ((busLink k env).ops purge) ⟨[], before⟩ addr file = .ok ⟨1, [], ⟨[], after ++ [t.wire]⟩⟩) := by
  obtain ⟨d, hr, ht⟩ := rawRead_text uninit file t.wire hf hn
  have step := raw_step uninit junk k env ho hw purge hp before after addr dest hreach t hl file d hr ht
  constructor
  · intro u cs hul hus hcs hfl hresp
    obtain ⟨g, hg, _⟩ := recv_telegram k env ho purge hp (after ++ [t.wire]) cs hcs u hul hus hfl Frame.zero
    rw [step, hresp, hg, ok_bind]
    rfl
  · intro hresp
    rw [step, hresp, recv_silent k env ho purge, ok_bind]
    rfl

/-- a meter with address 1 that acknowledges everything -/
def ackBus : Env :=
  { respond := fun _ => [.data [0xE5]], junk := fun _ => 0, wret := fun _ n => n, tty := true }

theorem rawText : HexText (cs! "10 40 01\n41 16\n") (Spec.Telegram.short 0x40 1).wire :=
  .byte (c0 := 0x31) (c1 := 0x30) (by decide) (by decide) (.space (by decide) (.byte (c0 := 0x34) (c1 := 0x30) (by decide) (by decide) (.space (by decide)
    (.byte (c0 := 0x30) (c1 := 0x31) (by decide) (by decide) (.space (by decide) (.byte (c0 := 0x34) (c1 := 0x31) (by decide) (by decide) (.space (by decide)
      (.byte (c0 := 0x31) (c1 := 0x36) (by decide) (by decide) (.space (by decide) .nil)))))))))

/-- The hypotheses of C93_wire are satisfiable: a ping in hexadecimal to a meter that acknowledges. -/
example (uninit : Buf 4096) (junk : Frame) (k : Kind) :
    rawSendTool uninit junk ((busLink k ackBus).ops PURGE_M2S) ⟨[], []⟩ (cs! "1") (cs! "10 40 01\n41 16\n") =
      .ok ⟨0, [], ⟨[], [(Spec.Telegram.short 0x40 1).wire]⟩⟩ :=
  (C93_wire uninit junk k ackBus (by cases k <;> simp [IsOpen, ackBus]) (fun _ _ => rfl) PURGE_M2S (by decide) [] [] (cs! "1") 1
    (.primary 1 (.digit 49 (by decide)) (fun h => absurd h.1 (by decide)) (by decide)) (.short 0x40 1) (by decide) _ rawText (by decide)).1
    .ack [[0xE5]] trivial trivial (by simp [Chunks]) (by decide) rfl

/-- C93: a primary address given on the command line has no influence; the address in the file counts. -/
theorem C93_primary_unused {σ : Type} (uninit : Buf 4096) (junk : Frame) (o : Ops σ) (s : σ) (addr addr' file : List Byte) (h : ¬ AddressMask addr) (h' : ¬ AddressMask addr') :
    rawSendTool uninit junk o s addr file = rawSendTool uninit junk o s addr' file := by
  have e : ∀ a, ¬ AddressMask a → isSecondaryAddress a = false := by
    intro a ha
    cases hb : isSecondaryAddress a with
    | false => rfl
    | true => exact absurd ((C52_address_validation a 0).1.mp hb) ha
  unfold rawSendTool reach
  rw [e addr h, e addr' h']
  simp only [Bool.false_eq_true, if_false, ok_bind]

theorem hexLoop_pair (n : Nat) (c0 c1 v : Byte) (u : Nat) (rest : List Byte) (r : Nat) (dst : List Byte) (hs : isSpace c0 = false) (hu : strtoul2 c0 c1 = some u)
    (hv : UInt8.ofNat u = v) (hr : r < n) (hd : n ≤ dst.length) : hexLoop n (c0 :: c1 :: rest) r dst = hexLoop n rest (r + 1) (dst.set r v) := by
  rw [hexLoop, hu]
  simp only [hs, Bool.false_eq_true, if_false]
  rw [if_neg (by omega), wr_ok (by omega), ok_bind, hv]

theorem raw_not_hex (uninit : Buf 4096) : ∃ d, rawRead uninit (cs! "10401G4116") = .ok (d, 5) ∧ d.take 5 = [0x10, 0x40, 0x01, 0x41, 0x16] := by
  have hz : ∃ z : List Byte, List.replicate (4096 - (cs! "10401G4116").length) (0 : Byte) = 0 :: 0 :: z := ⟨List.replicate 4084 0, by
    show List.replicate (4084 + 1 + 1) (0 : Byte) = _
    rw [List.replicate_succ, List.replicate_succ]⟩
  obtain ⟨z, hz⟩ := hz
  unfold rawRead
  rw [hz]
  have hb := uninit.size_eq
  generalize uninit.bytes = ub at hb ⊢
  generalize hN : (4096 : Nat) = N at hb ⊢
  have h5 : 5 ≤ N := by omega
  unfold hex2bin memset0
  rw [if_pos (by omega)]
  simp only [ok_bind]
  have ht : (cs! "10401G4116").take N = cs! "10401G4116" := List.take_of_length_le (by show 10 ≤ N; omega)
  rw [ht]
  have hlen : N ≤ (List.replicate N (0 : Byte) ++ ub.drop N).length := by simp
  generalize List.replicate N (0 : Byte) ++ ub.drop N = dst at hlen ⊢
  show ∃ d, hexLoop N (0x31 :: 0x30 :: 0x34 :: 0x30 :: 0x31 :: 0x47 :: 0x34 :: 0x31 :: 0x31 :: 0x36 :: 0 :: 0 :: z) 0 dst = _ ∧ _
  rw [hexLoop_pair N 0x31 0x30 0x10 _ _ _ _ (by decide) rfl (by decide) (by omega) hlen,
    hexLoop_pair N 0x34 0x30 0x40 _ _ _ _ (by decide) rfl (by decide) (by omega) (by simpa using hlen),
    hexLoop_pair N 0x31 0x47 0x01 _ _ _ _ (by decide) rfl (by decide) (by omega) (by simpa using hlen),
    hexLoop_pair N 0x34 0x31 0x41 _ _ _ _ (by decide) rfl (by decide) (by omega) (by simpa using hlen),
    hexLoop_pair N 0x31 0x36 0x16 _ _ _ _ (by decide) rfl (by decide) (by omega) (by simpa using hlen)]
  refine ⟨_, by rw [hexLoop]; rfl, ?_⟩
  match dst, hlen with
  | a :: b :: c :: d :: e :: t, _ => rfl
  | [], h | [_], h | [_, _], h | [_, _, _], h | [_, _, _, _], h => simp at h; omega

/-- C93 is false for texts that are not hexadecimal: "10401G4116" is sent as a ping to address 1 (C25). -/
theorem C93_not_hex_violation (uninit : Buf 4096) (junk : Frame) (k : Kind) : ∃ file, (∀ bs, ¬ HexText file bs) ∧
    rawSendTool uninit junk ((busLink k ackBus).ops PURGE_M2S) ⟨[], []⟩ (cs! "1") file = .ok ⟨0, [], ⟨[], [(Spec.Telegram.short 0x40 1).wire]⟩⟩ := by
  refine ⟨cs! "10401G4116", ?_, ?_⟩
  · intro bs h
    rcases h with _ | ⟨h, _⟩ | ⟨_, _, h⟩
    · exact absurd h (by decide)
    rcases h with _ | ⟨h, _⟩ | ⟨_, _, h⟩
    · exact absurd h (by decide)
    rcases h with _ | ⟨h, _⟩ | ⟨_, h1, _⟩
    · exact absurd h (by decide)
    · exact absurd h1 (by decide)
  · obtain ⟨d, hr, hd⟩ := raw_not_hex uninit
    have := raw_step uninit junk k ackBus (by cases k <;> simp [IsOpen, ackBus]) (fun _ _ => rfl) PURGE_M2S (by decide) [] [] (cs! "1") 1
      (.primary 1 (.digit 49 (by decide)) (fun h => absurd h.1 (by decide)) (by decide)) (.short 0x40 1) (by decide) _ d hr hd
    rw [this]
    obtain ⟨g, hg, _⟩ := recv_telegram k ackBus (by cases k <;> simp [IsOpen, ackBus]) PURGE_M2S (by decide) [(Spec.Telegram.short 0x40 1).wire] [[0xE5]] (by simp [Chunks]) .ack trivial trivial
      (by decide) Frame.zero
    show (recvFrame (busLink k ackBus) PURGE_M2S ⟨evs [[0xE5]], _⟩ Frame.zero >>= _) = _
    rw [List.nil_append, hg, ok_bind]
    rfl

/-! Direct instances of the theorems above. -/

example (uninit : Buf 4096) (junk : Frame) (k : Kind) (env : Env) (b : Bus) (e : Exit (Bus × List Act))
    (h : rawSendTool uninit junk ((busLink k env).ops PURGE_M2S).logged (b, []) (cs! "1") (cs! "10 40 01\n41 16\n") = .ok e) := C93_raw_send uninit junk _ b _ _ e h
example {σ : Type} (uninit : Buf 4096) (junk : Frame) (o : Ops σ) (s : σ) (file : List Byte) :=
  C93_primary_unused uninit junk o s (cs! "1") (cs! "99") file (fun h => absurd h.1 (by decide)) (fun h => absurd h.1 (by decide))

end Mbus
