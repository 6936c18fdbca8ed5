import Verif.Lemmas.SelectWire
import Verif.Lemmas.Fails
/-
Property theorems C47 (selection), C59 (echo suppression), C60 (reading one slave).
-/
namespace Mbus
open Spec

/-! ### C47 -/

/-- C47: whatever the handle does, the outcome of a selection is determined by what happened as the table `Selection` says:
ERROR without any transmission for a malformed mask, NOTHING on a timeout, COLLISION on garbage or on anything after the
acknowledge, SINGLE only for an acknowledge with nothing after it.  The observed run is the run itself. -/
theorem C47_classification {σ : Type} (o : Ops σ) (s : σ) (mask : List Byte) (r : Int) (s' : σ) :
    (selectSecondary o s mask = .ok (r, s') ↔ ∃ log, selectSecondary o.logged (s, []) mask = .ok (r, s', log)) ∧
    ∀ log, selectSecondary o.logged (s, []) mask = .ok (r, s', log) → Selection mask r log := by
  constructor
  · have h := select_logged o s [] mask
    constructor
    · intro h'
      rw [h'] at h
      cases hq : selectSecondary o.logged (s, []) mask with
      | error e => rw [hq] at h; cases h
      | ok q =>
        obtain ⟨r1, s1, log⟩ := q
        rw [hq] at h
        cases h
        exact ⟨log, rfl⟩
    · rintro ⟨log, hq⟩
      rw [hq] at h
      exact h.symm
  · intro log h
    obtain ⟨l, h1, h2, _⟩ := select_log o s [] mask r (s', log) h
    simp only [List.nil_append] at h1
    rw [h1]; exact h2

/-- C47: on both transports (unless received meter telegrams are purged), SINGLE means that a receive succeeded with an
acknowledge. -/
theorem C47_single_acknowledged (k : Kind) (env : Env) (purge : Int) (hp : purge ≠ PURGE_S2M) (b : Bus) (mask : List Byte) (b' : Bus)
    (log : List Act) (h : selectSecondary ((busLink k env).ops purge).logged (b, []) mask = .ok (1, b', log)) :
    ∃ f c g, SelectionFrame mask f ∧ c ≠ -1 ∧ Carries g .ack ∧ log = [.sent f c, .received RECV_OK g, .purged 0] := by
  obtain ⟨l, h1, h2, h3⟩ := select_log _ b [] mask 1 (b', log) h
  simp only [List.nil_append] at h1
  subst h1
  generalize hr : (1 : Int) = r at h2
  cases h2 with
  | single f c rc g _ hf hc _ _ hg =>
    refine ⟨f, c, g, hf, hc, hg, ?_⟩
    obtain ⟨s1, s2, hrecv⟩ := h3 rc g (by simp)
    change recvFrame (busLink k env) purge s1 Frame.zero = _ at hrecv
    have hg : g.type = TYPE_ACK := hg
    have : rc = RECV_OK := by
      apply Decidable.byContradiction
      intro hne
      unfold recvFrame at hrecv
      rw [bind_eq_ok] at hrecv
      obtain ⟨⟨c1, g1, t1⟩, e1, e2⟩ := hrecv
      simp only at e2
      have fails := bus_recv_fails parse_no_ack k env
      by_cases hc1 : c1 = RECV_OK
      · by_cases hack : g1.type = TYPE_ACK
        · rw [show frameDirection g1 = MASK_DIR_S2M from if_pos hack, if_neg (by decide), if_pos rfl, if_neg hp] at e2
          cases e2; exact hne hc1
        · split at e2
          · split at e2
            · exact fails _ _ _ _ _ hack e2 hne hg
            · cases e2; exact hack hg
          · split at e2
            · cases e2; exact hack hg
            · cases e2; exact hack hg
      · have hack : g1.type ≠ TYPE_ACK := fails _ _ _ _ _ (by decide) e1 hc1
        split at e2
        · split at e2
          · exact fails _ _ _ _ _ hack e2 hne hg
          · cases e2; exact hack hg
        · split at e2
          · cases e2; exact hack hg
          · cases e2; exact hack hg
    rw [this]
  | _ => exact absurd hr (by decide)

/-- C47: what "nothing after it" means: `mbus_purge_frames` returns 0 iff the next receive delivers neither a telegram nor
garbage, and 1 otherwise. -/
theorem C47_purge_result {σ : Type} (l : Link σ) (purge : Int) (s : σ) (p : Int) (s' : σ) (h : purgeFrames l purge s = .ok (p, s')) :
    ∃ c f s1, recvFrame l purge s Frame.zero = .ok (c, f, s1) ∧ p = if c = RECV_OK ∨ c = RECV_INVALID then 1 else 0 := by
  unfold purgeFrames at h
  rw [purgeLoop] at h
  split at h
  · cases h
  · next c f s1 h1 =>
    refine ⟨c, f, s1, h1, ?_⟩
    by_cases hc : c ≠ RECV_OK ∧ c ≠ RECV_INVALID
    · rw [dif_pos hc] at h
      cases h
      rw [if_neg (by rintro (h | h); exact hc.1 h; exact hc.2 h)]
    · rw [dif_neg hc] at h
      have := purgeLoop_one l purge p s' _ s1 f (Nat.le_refl _) h
      rw [this, if_pos]
      by_cases h0 : c = RECV_OK
      · exact .inl h0
      · exact .inr (Decidable.byContradiction fun h1 => hc ⟨h0, h1⟩)

/-- garbage does not start with an acknowledge -/
theorem garbled_head (bs : List Byte) (h : Garbled bs) : match bs with | [] => False | b :: _ => b ≠ 0xE5 := by
  cases h with
  | start b rest h => exact h.1
  | lengths l1 l2 rest h => show (0x68 : Byte) ≠ 0xE5; decide
  | content => show (0x68 : Byte) ≠ 0xE5; decide

/-- C47 on the wire: the answer to the selection telegram arrives in chunks `cs` of any size.  Silence: NOTHING.  One
acknowledge byte: SINGLE.  A garbled answer, alone or after an acknowledge: COLLISION.  An acknowledge followed by anything:
SINGLE or COLLISION.  In all these cases exactly the selection telegram was transmitted and nothing is left on the line. -/
theorem C47_wire (k : Kind) (env : Env) (ho : IsOpen k env) (hw : Writable env) (purge : Int) (hp : purge ≠ PURGE_S2M)
    (sent : List (List Byte)) (mask : List Byte) (hm : AddressMask mask) (cs : List (List Byte)) (hc : Chunks cs)
    (hr : env.respond (sent ++ [(selT mask).wire]) = evs cs) (bs : List Byte) (hbs : cs.flatten = bs)
    (h : bs = [] ∨ bs.head? = some 0xE5 ∨ Garbled bs) :
    ∃ r, selectSecondary ((busLink k env).ops purge) ⟨[], sent⟩ mask = .ok (r, ⟨[], sent ++ [(selT mask).wire]⟩) ∧
      (bs = [] → r = 0) ∧ (bs = [0xE5] → r = 1) ∧ (Garbled bs → r = 2) ∧
      (∀ rest, bs = 0xE5 :: rest → r = 1 ∨ r = 2) ∧ (∀ rest, Garbled rest → bs = 0xE5 :: rest → r = 2) := by
  rcases h with rfl | h | h
  · have hcs : cs = [] := by
      cases cs with
      | nil => rfl
      | cons c cs =>
        simp only [List.flatten_cons, List.append_eq_nil_iff] at hbs
        exact absurd hbs.1 (hc c (by simp))
    refine ⟨0, select_silence k env ho hw purge sent mask hm (by rw [hr, hcs]; rfl), fun _ => rfl, by simp, fun h => (garbled_head [] h).elim, by simp, by simp⟩
  · cases bs with
    | nil => simp at h
    | cons b rest =>
      simp only [List.head?_cons, Option.some.injEq] at h
      subst h
      obtain ⟨r, h1, h2, h3, h4⟩ := select_ack k env ho hw purge hp sent mask hm cs hc hr rest hbs
      refine ⟨r, h1, by simp, fun h => h3 (by simpa using h), fun hg => absurd rfl (garbled_head _ hg), fun _ _ => h2, fun rest' hn h => h4 ?_⟩
      simp only [List.cons.injEq, true_and] at h
      rw [h]; exact hn
  · refine ⟨2, select_garbage k env ho hw purge hp sent mask hm cs hc hr (by rw [hbs]; exact h), ?_, ?_, fun _ => rfl, fun _ _ => .inr rfl, fun _ _ _ => rfl⟩
    · rintro rfl; exact (garbled_head _ h).elim
    · rintro rfl; exact absurd rfl (garbled_head _ h)

/-- C47 is false for garbage that looks like a telegram from the master: with the default purge mode (M2S) the damaged telegram
is taken for an echo although it was refused, and the selection reports NOTHING. -/
theorem C47_echo_like_garbage_violation (k : Kind) :
    let bs : List Byte := [0x10, 0x40, 0x01, 0x00, 0x16]
    let env : Env := { respond := fun _ => [.data bs], junk := fun _ => 0, wret := fun _ n => n, tty := true }
    (∀ t : Telegram, t.Legal → ¬ bs <+: t.wire ∧ ¬ t.wire <+: bs) ∧
    ∃ b, selectSecondary ((busLink k env).ops PURGE_M2S) ⟨[], []⟩ (cs! "12345678FFFFFFFF") = .ok (0, b) := by
  intro bs env
  have hpre : ∀ p q : List Byte, bs = p ++ q → q ≠ [] → Open p ∧ need p ≤ q.length := by
    intro p q he hq
    have hp : p = bs.take p.length := by rw [he]; simp
    have hlen : 5 = p.length + q.length := by
      have := congrArg List.length he
      simpa [bs] using this
    have hq0 := List.length_pos_iff.mpr hq
    generalize p.length = n at *
    subst hp
    have : n = 0 ∨ n = 1 ∨ n = 2 ∨ n = 3 ∨ n = 4 := by omega
    rcases this with rfl | rfl | rfl | rfl | rfl
    · exact ⟨.inl rfl, by show 1 ≤ _; omega⟩
    · exact ⟨.inr (by decide), by show 4 ≤ _; omega⟩
    · exact ⟨.inr (by decide), by show 3 ≤ _; omega⟩
    · exact ⟨.inr (by decide), by show 2 ≤ _; omega⟩
    · exact ⟨.inr (by decide), by show 1 ≤ _; omega⟩
  have hbad : Bad bs := ⟨by decide, hpre⟩
  have hm : AddressMask (cs! "12345678FFFFFFFF") := by unfold AddressMask; decide
  refine ⟨fun t hl => ⟨code_neg_hopeless bs (by simp [bs]) hbad.neg t hl, ?_⟩, ?_⟩
  · rintro ⟨more, hmore⟩
    by_cases h0 : more = []
    · subst h0
      rw [List.append_nil] at hmore
      have := code_wire t hl
      rw [hmore] at this
      exact absurd this (by decide)
    · obtain ⟨ho, _⟩ := hpre t.wire more hmore.symm h0
      exact ho.noTelegram t hl (List.prefix_refl _)
  · have ho : IsOpen k env := .inr rfl
    have hc : Chunks [bs] := by unfold Chunks; decide
    obtain ⟨f0, f', cs', ev, h1, h2, h3, h4, e1, e2⟩ := kind_bad k env.tty ho bs hbad (by simp [bs]) [] [bs] hc (by simp) Frame.zero
    have hcs : cs' = [] := by
      cases cs' with
      | nil => rfl
      | cons c cs =>
        simp only [List.flatten_cons, List.append_eq_nil_iff] at h3
        exact absurd h3.1 (h2 c (by simp))
    subst hcs
    have hdir : frameDirection f' = MASK_DIR_M2S := by
      have hv : ∀ f : Frame, ∃ c, mbusParse f (rbuf bs) bs.length = .ok (c, { f with start1 := 0x10, control := 0x40, address := 1, checksum := 0, stop := 0x16, type := TYPE_SHORT }) := by
        intro f
        obtain ⟨f', h⟩ := parse_code f bs
        refine ⟨-3, ?_⟩
        rw [parse_take f (rbuf bs) bs.length (by simp [rbuf]), rbuf_take]
        rfl
      obtain ⟨c, hv⟩ := hv f0
      rw [h4] at hv
      cases hv
      show (if TYPE_SHORT = TYPE_ACK then MASK_DIR_S2M else (0x40 : Byte) &&& MASK_DIR) = _
      decide
    unfold selectSecondary
    rw [if_neg (by decide), bus_sendSelect k env ho (fun _ _ => rfl) PURGE_M2S [] _ hm, ok_bind]
    simp only
    rw [if_neg (by decide)]
    show ∃ b, (recvFrame (busLink k env) PURGE_M2S ⟨evs [bs], _⟩ Frame.zero >>= _) = _
    have hr : recvFrame (busLink k env) PURGE_M2S ⟨evs [bs], [] ++ [(selT (cs! "12345678FFFFFFFF")).wire]⟩ Frame.zero =
        .ok (RECV_TIMEOUT, f', ⟨[], [] ++ [(selT (cs! "12345678FFFFFFFF")).wire]⟩) := by
      have h1' : (busLink k env).recv ⟨evs [bs], [] ++ [(selT (cs! "12345678FFFFFFFF")).wire]⟩ Frame.zero =
          .ok (RECV_INVALID, f', ⟨[], [] ++ [(selT (cs! "12345678FFFFFFFF")).wire]⟩) := by
        show (kindRecv k env.tty (evs [bs]) Frame.zero >>= _) = _
        rw [h1]; rfl
      unfold recvFrame
      rw [h1', ok_bind]
      simp only
      rw [if_pos hdir, if_pos trivial]
      exact bus_recv_silent k env ho _ f'
    rw [hr, ok_bind]
    exact ⟨_, rfl⟩

/-- a bus with one meter that answers every selection -/
example (k : Kind) : ∃ r, selectSecondary ((busLink k { respond := fun _ => [.data [0xE5]], junk := fun _ => 0, wret := fun _ n => n, tty := true }).ops PURGE_M2S)
    ⟨[], []⟩ (cs! "12345678FFFFFFFF") = .ok (r, ⟨[], [] ++ [(selT (cs! "12345678FFFFFFFF")).wire]⟩) ∧ r = 1 := by
  obtain ⟨r, h1, _, h2, _⟩ := C47_wire k { respond := fun _ => [.data [0xE5]], junk := fun _ => 0, wret := fun _ n => n, tty := true } (.inr rfl)
    (fun _ _ => rfl) PURGE_M2S (by decide) [] (cs! "12345678FFFFFFFF") (by unfold AddressMask; decide) [[0xE5]] (by unfold Chunks; decide) rfl [0xE5] rfl (.inr (.inl rfl))
  exact ⟨r, h1, h2 rfl⟩

/-! ### C59 -/

theorem direction_master (f : Frame) : (frameDirection f = MASK_DIR_M2S ↔ FromMaster f) ∧ (frameDirection f = MASK_DIR_S2M ↔ ¬ FromMaster f) := by
  have key : ∀ c : Byte, (c &&& MASK_DIR = MASK_DIR_M2S ↔ c &&& 0x40 ≠ 0) ∧ (c &&& MASK_DIR = MASK_DIR_S2M ↔ ¬ (c &&& 0x40 ≠ 0)) := by
    apply forall_byte; decide +kernel
  unfold frameDirection FromMaster
  by_cases h : f.type = TYPE_ACK
  · have h' : f.type = 1 := h
    rw [if_pos h]
    exact ⟨⟨fun h => absurd h (by decide), fun hm => absurd h' hm.1⟩, ⟨fun _ hm => hm.1 h', fun _ => rfl⟩⟩
  · have h' : f.type ≠ 1 := h
    rw [if_neg h]
    exact ⟨⟨fun hm => ⟨h', (key _).1.mp hm⟩, fun hm => (key _).1.mpr hm.2⟩,
      ⟨fun hm hn => (key _).2.mp hm hn.2, fun hm => (key _).2.mpr fun hc => hm ⟨h', hc⟩⟩⟩

/-- C59: one receive, and a second one exactly when the frame object then holds a telegram of the direction to be purged (0 none,
1 master to meter, 2 meter to master); the result is that of the last receive. -/
theorem C59_second_receive {σ : Type} (l : Link σ) (purge : Int) (s : σ) (f : Frame) :
    (∀ e, l.recv s f = .error e → recvFrame l purge s f = .error e) ∧
    (∀ c g s1, l.recv s f = .ok (c, g, s1) →
      ((purge = 1 ∧ FromMaster g) ∨ (purge = 2 ∧ ¬ FromMaster g) → recvFrame l purge s f = l.recv s1 g) ∧
      (¬ ((purge = 1 ∧ FromMaster g) ∨ (purge = 2 ∧ ¬ FromMaster g)) → recvFrame l purge s f = .ok (c, g, s1))) := by
  constructor
  · intro e h
    unfold recvFrame
    rw [h]; rfl
  · intro c g s1 h
    unfold recvFrame
    rw [h, ok_bind]
    simp only
    obtain ⟨d1, d2⟩ := direction_master g
    by_cases hm : FromMaster g
    · rw [if_pos (d1.mpr hm)]
      constructor
      · rintro (⟨h, _⟩ | ⟨_, h⟩)
        · rw [if_pos (show purge = PURGE_M2S from h)]
        · exact absurd hm h
      · intro hno
        rw [if_neg (show ¬ purge = PURGE_M2S from fun h => hno (.inl ⟨h, hm⟩))]
    · rw [if_neg (fun h => hm (d1.mp h)), if_pos (d2.mpr hm)]
      constructor
      · rintro (⟨_, h⟩ | ⟨h, _⟩)
        · exact absurd h hm
        · rw [if_pos (show purge = PURGE_S2M from h)]
      · intro hno
        rw [if_neg (show ¬ purge = PURGE_S2M from fun h => hno (.inr ⟨h, hm⟩))]

theorem carries_master (t : Telegram) (hl : t.Legal) (ht : MasterT t) (f : Frame) (hc : Carries f t) : FromMaster f := by
  cases t with
  | ack => exact ht.elim
  | short c a =>
    have hcode : ∀ c : Byte, c ∈ shortCodes → c &&& 0x40 ≠ 0 := by decide +kernel
    exact ⟨by rw [hc.1]; decide, by rw [hc.2.1]; exact hcode c hl⟩
  | data c a ci p =>
    exact ⟨by rw [hc.1]; split <;> decide, by rw [hc.2.1]; exact ht⟩

theorem carries_slave (t : Telegram) (ht : FromSlave t) (f : Frame) (hc : Carries f t) : ¬ FromMaster f := by
  cases t with
  | ack => exact fun h => h.1 hc
  | short c a => exact ht.elim
  | data c a ci p => exact fun h => h.2 (by rw [hc.2.1]; exact ht)

/-- C59 (echo): a transport that echoes the master's telegram `e` and then delivers the meter's telegram `t`, in chunks of any
size: with purging of master telegrams the reply is received as if there were no echo; without it, the echo is received and the
reply stays on the line. -/
theorem C59_echo (k : Kind) (env : Env) (ho : IsOpen k env) (sent : List (List Byte)) (e t : Telegram) (hle : e.Legal) (hlt : t.Legal)
    (he : MasterT e) (cs ds : List (List Byte)) (hcs : Chunks cs) (hds : Chunks ds) (h1 : cs.flatten = e.wire)
    (h2 : ds.flatten = t.wire) (f : Frame) :
    (∃ g, recvFrame (busLink k env) 1 ⟨evs (cs ++ ds), sent⟩ f = .ok (RECV_OK, g, ⟨[], sent⟩) ∧ Carries g t) ∧
    (∃ g, recvFrame (busLink k env) 0 ⟨evs (cs ++ ds), sent⟩ f = .ok (RECV_OK, g, ⟨evs ds, sent⟩) ∧ Carries g e) := by
  have hf : ∀ skip, Feeds skip 0 (evs (cs ++ ds)) e.wire (evs ds) := by
    intro skip
    rw [← h1]
    clear h1
    induction cs with
    | nil => exact .done _
    | cons c cs ih => exact .whole c (hcs c (by simp)) (ih fun x hx => hcs x (by simp [hx]))
  have hne : cs ≠ [] := by rintro rfl; cases e <;> simp [Telegram.wire] at h1
  have first : ∃ g, (busLink k env).recv ⟨evs (cs ++ ds), sent⟩ f = .ok (RECV_OK, g, ⟨evs ds, sent⟩) ∧ Carries g e := by
    have key : ∃ g ev, kindRecv k env.tty (evs (cs ++ ds)) f = .ok ⟨RECV_OK, g, evs ds, ev⟩ ∧ Carries g e := by
      cases k with
      | tcp =>
        obtain ⟨g, a, b⟩ := C40_tcp_recv_delivers _ _ _ e f hle (hf .eintr)
        exact ⟨g, _, a, b⟩
      | serial =>
        rcases ho with h | h
        · cases h
        rw [h]
        obtain ⟨g, a, b⟩ := C41_serial_recv_delivers _ _ _ e f hle (hf _) (by omega) (by
          cases cs with
          | nil => exact absurd rfl hne
          | cons c cs =>
            have := hcs c (by simp)
            simp [evs, this])
        exact ⟨g, _, a, b⟩
    obtain ⟨g, ev, a, b⟩ := key
    refine ⟨g, ?_, b⟩
    show (kindRecv k env.tty _ f >>= _) = _
    rw [a]; rfl
  obtain ⟨g, a, b⟩ := first
  have hm := carries_master e hle he g b
  have hx := (C59_second_receive (busLink k env) 1 ⟨evs (cs ++ ds), sent⟩ f).2 _ _ _ a
  have hy := (C59_second_receive (busLink k env) 0 ⟨evs (cs ++ ds), sent⟩ f).2 _ _ _ a
  constructor
  · rw [hx.1 (.inl ⟨rfl, hm⟩)]
    obtain ⟨g', ev, c, d⟩ := kind_recv_telegram k env.tty ho ds hds t hlt h2 g
    refine ⟨g', ?_, d⟩
    show (kindRecv k env.tty _ g >>= _) = _
    rw [c]; rfl
  · rw [hy.2 (by rintro (⟨h, _⟩ | ⟨h, _⟩) <;> exact absurd h (by decide))]
    exact ⟨g, rfl, b⟩

example (k : Kind) : ∃ g, recvFrame (busLink k { respond := fun _ => [], junk := fun _ => 0, wret := fun _ n => n, tty := true }) 1
    ⟨[.data [0x10, 0x5B], .data [0x05, 0x60, 0x16], .data [0xE5]], []⟩ Frame.zero = .ok (RECV_OK, g, ⟨[], []⟩) ∧ Carries g .ack :=
  (C59_echo k { respond := fun _ => [], junk := fun _ => 0, wret := fun _ n => n, tty := true } (.inr rfl) [] (.short 0x5B 5) .ack (by decide) trivial trivial
    [[0x10, 0x5B], [0x05, 0x60, 0x16]] [[0xE5]] (by unfold Chunks; decide) (by unfold Chunks; decide) (by decide) rfl Frame.zero).1

/-! ### C60 -/

/-- C60: `mbus_read_slave` returns 0 or -1; it returns 0 iff the preparation succeeded, a request (REQ_UD2 to the primary address,
or to FD after the selection) was transmitted and the receive right after it returned OK, with the reply the caller gets. -/
theorem C60_read_slave {σ : Type} (o : Ops σ) (s : σ) (addr : Address) (reply : Frame) (r : Int) (reply' : Frame) (s' : σ) (log : List Act)
    (h : readSlave o.logged (s, []) addr reply = .ok (r, reply', s', log)) :
    (r = 0 ∨ r = -1) ∧
    (r = 0 ↔ ∃ l f c, Prepared addr l ∧ Carries f (.short 0x5B (target addr)) ∧ c ≠ -1 ∧ log = l ++ [.sent f c, .received RECV_OK reply']) := by
  -- the request and the reply, after the preparation `l`
  have finish : ∀ (a : Int) (s1 : σ) (l : List Act), Prepared addr l → (0 ≤ a ∧ a ≤ 255) → UInt8.ofNat a.toNat = target addr →
      ∀ (c0 : Int) (q : σ × List Act), sendRequest o.logged (s1, l) a = .ok (c0, q) →
      (if c0 = -1 then .ok (-1, reply, q) else do
        let (c, reply, s) ← o.logged.recv q reply
        if c ≠ 0 then .ok (-1, reply, s) else .ok (0, reply, s)) = Except.ok (r, reply', s', log) →
      (r = 0 ∨ r = -1) ∧
      (r = 0 ↔ ∃ l f c, Prepared addr l ∧ Carries f (.short 0x5B (target addr)) ∧ c ≠ -1 ∧ log = l ++ [.sent f c, .received RECV_OK reply']) := by
    intro a s1 l hl ha htg c0 q hq hrest
    have hlen : ∀ l' : List Act, Prepared addr l' → l'.length = l.length := by
      intro l' hl'
      cases addr with
      | primary _ => rw [hl.1, hl'.1]
      | secondary t => rw [selection_single_length hl, selection_single_length hl']
    rcases request_log o s1 l a c0 q hq with ⟨hna, _⟩ | ⟨_, f, c, hf, hlog, hc⟩
    · exact absurd ha hna
    obtain ⟨s2, log2⟩ := q
    simp only at hlog
    subst hlog
    rcases hc with ⟨rfl, rfl⟩ | ⟨hc, rfl⟩
    · rw [if_pos rfl] at hrest
      cases hrest
      refine ⟨.inr rfl, fun h => absurd h (by decide), ?_⟩
      rintro ⟨l', f', c', hl', _, _, he⟩
      have := congrArg List.length he
      simp only [List.length_append, List.length_cons, List.length_nil, hlen l' hl'] at this
      omega
    · rw [if_neg (by decide), logged_recv_eq] at hrest
      cases hrv : o.recv s2 reply with
      | error e => rw [hrv] at hrest; cases hrest
      | ok q =>
        obtain ⟨rc, g, s3⟩ := q
        rw [hrv] at hrest
        simp only [ok_bind] at hrest
        by_cases h0 : rc ≠ 0
        · rw [if_pos h0] at hrest
          cases hrest
          refine ⟨.inr rfl, fun h => absurd h (by decide), ?_⟩
          rintro ⟨l', f', c', hl', _, _, he⟩
          rw [List.append_assoc] at he
          have := (List.append_inj he (hlen l' hl').symm).2
          simp only [List.cons_append, List.nil_append, List.cons.injEq, Act.received.injEq, and_true, Act.sent.injEq] at this
          exact absurd this.2 h0
        · rw [if_neg h0] at hrest
          have h0 : rc = RECV_OK := by
            have : rc = 0 := Decidable.byContradiction h0
            exact this
          subst h0
          cases hrest
          refine ⟨.inl rfl, fun _ => ⟨l, f, c, hl, by rw [← htg]; exact hf, hc, by simp⟩, fun _ => rfl⟩
  -- failed preparation
  have fail : ∀ (l : List Act), log = l → l.length ≤ 3 → (∀ l', Prepared addr l' → l.length < l'.length + 2) → r = -1 →
      (r = 0 ∨ r = -1) ∧
      (r = 0 ↔ ∃ l f c, Prepared addr l ∧ Carries f (.short 0x5B (target addr)) ∧ c ≠ -1 ∧ log = l ++ [.sent f c, .received RECV_OK reply']) := by
    rintro l rfl h3 hlt rfl
    refine ⟨.inr rfl, fun h => absurd h (by decide), ?_⟩
    rintro ⟨l', f', c', hl', _, _, he⟩
    have h1 := congrArg List.length he
    have h2 := hlt l' hl'
    simp only [List.length_append, List.length_cons, List.length_nil] at h1
    omega
  unfold readSlave at h
  cases addr with
  | primary a =>
    simp only at h
    rw [bind_eq_ok] at h
    obtain ⟨⟨c0, q⟩, hq, hrest⟩ := h
    by_cases ha : 0 ≤ a ∧ a ≤ 255
    · exact finish a s [] ⟨rfl, ha⟩ ha rfl c0 q hq hrest
    · rcases request_log o s [] a c0 q hq with ⟨_, rfl, rfl⟩ | ⟨h, _⟩
      · simp only at hrest
        rw [if_pos trivial] at hrest
        cases hrest
        refine fail [] rfl (by simp) (fun l' _ => by simp) rfl
      · exact absurd h ha
  | secondary t =>
    simp only at h
    rw [bind_eq_ok] at h
    obtain ⟨⟨pr, s1, l⟩, hsel, hq⟩ := h
    simp only at hq
    obtain ⟨l', e1, e2, _⟩ := select_log o s [] t pr (s1, l) hsel
    simp only [List.nil_append] at e1
    subst e1
    by_cases hpr : pr = PROBE_COLLISION ∨ pr = PROBE_NOTHING ∨ pr = PROBE_ERROR
    · have hq : (Except.ok (-1, reply, s1, l) : C (Int × Frame × σ × List Act)) = .ok (r, reply', s', log) := by
        rw [← hq]
        rcases hpr with rfl | rfl | rfl <;> rfl
      cases hq
      refine fail _ rfl (selection_length e2) (fun l' hl' => ?_) rfl
      have := selection_single_length hl'
      have := selection_length e2
      omega
    · rw [if_neg (fun h => hpr (.inl h)), if_neg (fun h => hpr (.inr (.inl h))), if_neg (fun h => hpr (.inr (.inr h)))] at hq
      have h1 : pr = 1 := by
        rcases selection_code e2 with h | h | h | h
        · exact absurd (.inr (.inl h)) hpr
        · exact h
        · exact absurd (.inl h) hpr
        · exact absurd (.inr (.inr h)) hpr
      subst h1
      rw [bind_eq_ok] at hq
      obtain ⟨⟨c0, q⟩, hq, hrest⟩ := hq
      exact finish 0xFD s1 l e2 (by decide) rfl c0 q hq hrest

/-- C60 on the wire: the meter's telegram `t`, arriving in chunks of any size after the request to a primary address, is what the
caller gets; a silent bus is an error. -/
theorem C60_wire (k : Kind) (env : Env) (ho : IsOpen k env) (hw : Writable env) (purge : Int) (hp : purge ≠ PURGE_S2M)
    (sent : List (List Byte)) (a : Int) (ha : 0 ≤ a ∧ a ≤ 255) (reply : Frame) (req : List Byte)
    (hreq : req = (Telegram.short 0x5B (UInt8.ofNat a.toNat)).wire) :
    (∀ cs t, Chunks cs → Telegram.Legal t → FromSlave t → cs.flatten = t.wire → env.respond (sent ++ [req]) = evs cs →
      ∃ f, readSlave ((busLink k env).ops purge) ⟨[], sent⟩ (.primary a) reply = .ok (0, f, ⟨[], sent ++ [req]⟩) ∧ Carries f t) ∧
    (env.respond (sent ++ [req]) = [] →
      readSlave ((busLink k env).ops purge) ⟨[], sent⟩ (.primary a) reply = .ok (-1, reply, ⟨[], sent ++ [req]⟩)) := by
  subst hreq
  constructor
  · intro cs t hc hl hs hf hr
    obtain ⟨f, h1, h2⟩ := recv_telegram k env ho purge hp (sent ++ [(Telegram.short 0x5B (UInt8.ofNat a.toNat)).wire]) cs hc t hl hs hf reply
    refine ⟨f, ?_, h2⟩
    unfold readSlave
    simp only
    rw [bus_sendRequest k env ho hw purge sent a ha, ok_bind]
    simp only
    rw [if_neg (by decide), hr]
    show (recvFrame (busLink k env) purge ⟨evs cs, _⟩ reply >>= _) = _
    rw [h1, ok_bind]
    rfl
  · intro hr
    unfold readSlave
    simp only
    rw [bus_sendRequest k env ho hw purge sent a ha, ok_bind]
    simp only
    rw [if_neg (by decide), hr]
    show (recvFrame (busLink k env) purge ⟨[], _⟩ reply >>= _) = _
    rw [recv_silent k env ho, ok_bind]
    rfl

/-- a meter at address 1 that answers with a control telegram, byte by byte -/
example (k : Kind) (reply : Frame) : ∃ f s', readSlave ((busLink k { respond := fun _ => evs ((Telegram.data 0x08 1 0x72 []).wire.map fun b => [b]), junk := fun _ => 0, wret := fun _ n => n, tty := true }).ops PURGE_M2S)
    ⟨[], []⟩ (.primary 1) reply = .ok (0, f, s') ∧ Carries f (.data 0x08 1 0x72 []) := by
  obtain ⟨f, h1, h2⟩ := (C60_wire k { respond := fun _ => evs ((Telegram.data 0x08 1 0x72 []).wire.map fun b => [b]), junk := fun _ => 0, wret := fun _ n => n, tty := true }
    (.inr rfl) (fun _ _ => rfl) PURGE_M2S (by decide) [] 1 (by decide) reply _ rfl).1 ((Telegram.data 0x08 1 0x72 []).wire.map fun b => [b])
    (.data 0x08 1 0x72 []) (by unfold Chunks; decide) (by decide) rfl (by decide) rfl
  exact ⟨f, _, h1, h2⟩

/-- C47 applied: the selection is answered by E5 -/
example (k : Kind) : ∃ b' log, selectSecondary ((busLink k { respond := fun _ => [.data [0xE5]], junk := fun _ => 0, wret := fun _ n => n, tty := true }).ops PURGE_M2S).logged
      (⟨[], []⟩, []) (cs! "12345678FFFFFFFF") = .ok (1, b', log) ∧
    ∃ f c g, SelectionFrame (cs! "12345678FFFFFFFF") f ∧ c ≠ -1 ∧ Carries g .ack ∧ log = [.sent f c, .received RECV_OK g, .purged 0] := by
  obtain ⟨r, h1, _, h2, _⟩ := C47_wire k { respond := fun _ => [.data [0xE5]], junk := fun _ => 0, wret := fun _ n => n, tty := true } (.inr rfl)
    (fun _ _ => rfl) PURGE_M2S (by decide) [] (cs! "12345678FFFFFFFF") (by unfold AddressMask; decide) [[0xE5]] (by unfold Chunks; decide) rfl [0xE5] rfl (.inr (.inl rfl))
  have h2 := h2 rfl
  rw [h2] at h1
  obtain ⟨log, hl⟩ := (C47_classification _ _ _ _ _).1.mp h1
  exact ⟨_, log, hl, C47_single_acknowledged k _ PURGE_M2S (by decide) ⟨[], []⟩ _ _ log hl⟩

/-- C60 applied: a successful read of the meter with primary address 1 -/
example (k : Kind) (reply : Frame) (env : Env) (r : Int) (f : Frame) (b : Bus) (log : List Act)
    (h : readSlave ((busLink k env).ops PURGE_M2S).logged (⟨[], []⟩, []) (.primary 1) reply = .ok (r, f, b, log)) :=
  C60_read_slave _ _ _ _ _ _ _ _ h
example (k : Kind) (env : Env) (b b' : Bus) (p : Int) (h : purgeFrames (busLink k env) 0 b = .ok (p, b')) := C47_purge_result _ _ _ _ _ h

end Mbus
