import Verif.Lemmas.QuietCost
import Verif.Lemmas.ReadsMore
import Verif.Lemmas.Meter
import Verif.Props.Scan
import Verif.Props.Command
/-
C126: how long a call can wait.  The unit is the `read` system call: each one waits until something arrives or its timeout is
over, so `n` reads take at most `n` timeouts.
-/
namespace Mbus
open Spec

/-! ### one receive -/

/-- C126: one receive of a handle makes at most 263 reads on a serial line and at most 261 and the interrupted ones on a socket,
whatever arrives and in whatever pieces (and it is the receive of the model, Model/Transport, whose reads are counted). -/
theorem C126_receive (k : Kind) (tty : Bool) (es : List Ev) (f : Frame) :
    ∃ out n, kindRecvR k tty es f = .ok (out, n) ∧ kindRecv k tty es f = .ok out ∧
      n ≤ (match k with | .serial => 263 | .tcp => 261 + eintrs es) := by
  obtain ⟨⟨out, n⟩, h⟩ := kindRecvR_defined k tty es f
  refine ⟨out, n, h, kindRecvR_recv h, ?_⟩
  have := (kindRecvR_bound k tty es f _ h).1
  cases k <;> exact this

/-- the reads of a receive that finds `es` waiting -/
def recvReads (k : Kind) (f : Frame) (es : List Ev) : Option Nat :=
  match kindRecvR k true es f with
  | .ok (_, n) => some n
  | .error _ => none

/-- the reads of `mbus_purge_frames` -/
def purgeReads (k : Kind) (env : Env) (purge : Int) (es : List Ev) : Option Nat :=
  match purgeFrames (readsLink k env) purge (⟨es, []⟩, 0) with
  | .ok (_, _, n) => some n
  | .error _ => none

/-- C126: what `Settles` means is what happens: a receive that makes no more reads than there are results waiting does the same
and leaves the rest alone when more is on its way. -/
theorem C126_lookahead (k : Kind) (tty : Bool) (es more : List Ev) (f : Frame) (out : RecvOut) (n : Nat) (h : kindRecvR k tty es f = .ok (out, n))
    (hn : n ≤ es.length) : kindRecvR k tty (es ++ more) f = .ok ({ out with rest := out.rest ++ more }, n) :=
  (kindRecvR_more k tty es more f _ h hn).1

theorem eintrs_none (line : Nat → Ev) (hl : ∀ i, line i ≠ .eintr) : ∀ (l : List Nat), eintrs (l.map line) = 0 := by
  intro l
  induction l with
  | nil => rfl
  | cons a l ih =>
    rw [List.map_cons]
    have := hl a
    cases h : line a with
    | eintr => exact absurd h this
    | _ => exact ih

/-- C126: every receive returns even if the line never falls silent: on a serial line whatever comes, on a socket unless reads
are interrupted again and again. -/
theorem C126_receive_settles (k : Kind) (f : Frame) (line : Nat → Ev) (hl : k = .tcp → ∀ i, line i ≠ .eintr) : Settles (recvReads k f) line := by
  refine ⟨263, ?_⟩
  obtain ⟨out, n, h, _, hn⟩ := C126_receive k true ((List.range 263).map line) f
  refine ⟨n, by unfold recvReads; rw [h], ?_⟩
  cases k with
  | serial => exact hn
  | tcp =>
    rw [eintrs_none line (hl rfl)] at hn
    dsimp only at hn
    omega

theorem tcp_eintrs (f : Frame) (buff : List Byte) (len m : Nat) (hl : ¬ len + (m + 1) > PACKET_BUFF_SIZE) (j : Nat) : ∀ n,
    tcpLoopR (List.replicate j .eintr) f buff len m n = .ok (⟨RECV_TIMEOUT, f, [], none⟩, n + j + 1) := by
  induction j with
  | zero => intro n; rw [tcpLoopR_step, if_neg hl]; rfl
  | succ j ih =>
    intro n
    rw [tcpLoopR_step, if_neg hl]
    show tcpLoopR (List.replicate j .eintr) f buff len m (n + 1) = _
    rw [ih]
    congr 2
    omega

/-- C126, false for interrupted reads on a socket: as long as each `read` is interrupted by a signal the receive goes on; the
timeout starts again each time. -/
theorem C126_interrupted_violation : ∀ f, ¬ Settles (recvReads .tcp f) fun _ => .eintr := by
  rintro f ⟨n, r, h, hr⟩
  have hm : (List.range n).map (fun _ => Ev.eintr) = List.replicate n .eintr := by simp [List.map_const']
  rw [hm] at h
  unfold recvReads at h
  have := tcp_eintrs f (List.replicate PACKET_BUFF_SIZE 0) 0 0 (by decide) n 0
  rw [show kindRecvR .tcp true (List.replicate n .eintr) f = tcpLoopR (List.replicate n .eintr) f (List.replicate PACKET_BUFF_SIZE 0) 0 0 0 from rfl, this] at h
  cases h
  omega

/-- a purge makes more reads than there are pieces waiting -/
theorem purge_busy (k : Kind) (env : Env) (ho : IsOpen k env) (purge : Int) (cs : List (List Byte)) (hc : Chunks cs) (sent : List (List Byte)) (m : Nat)
    (c : Int) (b : Bus) (m' : Nat) (hp : purgeFrames (readsLink k env) purge (⟨evs cs, sent⟩, m) = .ok (c, b, m')) : m + cs.length < m' := by
  by_cases hr : m + cs.length < m'
  · exact hr
  have hmore := purgeLoopR_more k env [.data [0]] purge _ _ _ _ _ _ _ _ (Nat.le_refl _) hp (by dsimp only; simp [evs]; omega)
  have hch : Chunks (cs ++ [[0]]) := by
    intro x hx
    rcases List.mem_append.mp hx with h | h
    · exact hc x h
    · rw [List.mem_singleton.mp h]; simp
  obtain ⟨c', hdr⟩ := purge_drains k env ho purge sent _ hch
  have hsim := purgeLoop_sim (reads_sim k env) purge (⟨evs (cs ++ [[0]]), sent⟩, m) Frame.zero 0
  have e : (⟨evs (cs ++ [[0]]), sent⟩ : Bus) = Bus.more ⟨evs cs, sent⟩ [.data [0]] := by
    unfold Bus.more evs
    rw [List.map_append]; rfl
  have hdr' : purgeLoop (busLink k env) purge ⟨evs (cs ++ [[0]]), sent⟩ Frame.zero 0 = .ok (c', ⟨[], sent⟩) := hdr
  rw [show purgeLoop (busLink k env) purge (Prod.fst ((⟨evs (cs ++ [[0]]), sent⟩ : Bus), m)) Frame.zero 0 = _ from hdr', e, hmore] at hsim
  have hs := congrArg (fun x : C (Int × Bus) => match x with | .ok q => q.2.script | .error _ => []) hsim
  have : ([] : List Ev) = b.script ++ [.data [0]] := hs
  simp at this

theorem line_chunks (line : Nat → List Byte) (hl : ∀ i, line i ≠ []) (l : List Nat) :
    Chunks (l.map line) ∧ l.map (fun i => Ev.data (line i)) = evs (l.map line) := by
  constructor
  · intro c hc
    obtain ⟨i, _, rfl⟩ := List.mem_map.mp hc
    exact hl i
  · unfold evs; rw [List.map_map]; rfl

/-- C126, false for `mbus_purge_frames`: it never returns while something keeps arriving, whatever it is. -/
theorem C126_purge_violation (k : Kind) (env : Env) (ho : IsOpen k env) (purge : Int) (line : Nat → List Byte) (hl : ∀ i, line i ≠ []) :
    ¬ Settles (purgeReads k env purge) fun i => .data (line i) := by
  rintro ⟨n, r, h, hr⟩
  obtain ⟨h1, h2⟩ := line_chunks line hl (List.range n)
  rw [h2] at h
  unfold purgeReads at h
  cases hp : purgeFrames (readsLink k env) purge (⟨evs ((List.range n).map line), []⟩, 0) with
  | error e => rw [hp] at h; cases h
  | ok q =>
    obtain ⟨c, b, m⟩ := q
    rw [hp] at h
    cases h
    have := purge_busy k env ho purge _ h1 _ _ _ _ _ hp
    simp at this
    omega

theorem kindRecvR_ack (k : Kind) (tty : Bool) (ho : k = .tcp ∨ tty = true) (es : List Ev) (f : Frame) :
    ∃ f' ev, kindRecvR k tty (.data [0xE5] :: es) f = .ok (⟨RECV_OK, f', es, ev⟩, 1) ∧ f'.type = TYPE_ACK := by
  cases k with
  | tcp =>
    refine ⟨{ f with start1 := 0xE5, type := TYPE_ACK }, some [0xE5], ?_, rfl⟩
    show tcpLoopR (.data [0xE5] :: es) f (List.replicate PACKET_BUFF_SIZE 0) 0 0 0 = _
    rw [tcpLoopR_step, if_neg (by decide), show List.replicate PACKET_BUFF_SIZE (0 : Byte) = 0 :: List.replicate 2047 0 from List.replicate_succ]
    generalize List.replicate 2047 (0 : Byte) = l
    rfl
  | serial =>
    rcases ho with h | h
    · cases h
    · subst h
      refine ⟨{ f with start1 := 0xE5, type := TYPE_ACK }, some [0xE5], ?_, rfl⟩
      show serialLoopR (.data [0xE5] :: es) f (List.replicate PACKET_BUFF_SIZE 0) 0 0 0 0 = _
      rw [serialLoopR_step, if_neg (by decide), show List.replicate PACKET_BUFF_SIZE (0 : Byte) = 0 :: List.replicate 2047 0 from List.replicate_succ]
      generalize List.replicate 2047 (0 : Byte) = l
      rfl

/-- the reads of `mbus_select_secondary_address` when `es` arrives after the selection -/
def selectReads (k : Kind) (st : Settings) (mask : List Byte) (es : List Ev) : Option Nat :=
  match (Call.select mask).run (readsLink k { quiet with respond := fun _ => es }) (st, ⟨[], []⟩, 0) with
  | .ok (_, _, n) => some n
  | .error _ => none

/-- C126, false for the calls that purge after their receive, here for selecting: if the acknowledgement of the meter is followed by
a line that never falls silent, `mbus_select_secondary_address` never returns. -/
theorem C126_select_violation (k : Kind) (st : Settings) (hp : st.purgeFirst ≠ PURGE_S2M) (mask : List Byte) (hm : AddressMask mask)
    (line : Nat → List Byte) (hl : ∀ i, line i ≠ []) (hack : line 0 = [0xE5]) : ¬ Settles (selectReads k st mask) fun i => .data (line i) := by
  rintro ⟨n, r, h, hr⟩
  obtain ⟨h1, h2⟩ := line_chunks line hl (List.range n)
  rw [h2] at h
  generalize he : ({ quiet with respond := fun _ => evs ((List.range n).map line) } : Env) = env at h
  have ho : IsOpen k env := by subst he; exact .inr rfl
  have hw : Writable env := by subst he; exact fun _ _ => rfl
  have hresp : ∀ sent, env.respond sent = evs ((List.range n).map line) := by subst he; exact fun _ => rfl
  unfold selectReads at h
  rw [he] at h
  cases hrun : (Call.select mask).run (readsLink k env) (st, ⟨[], []⟩, 0) with
  | error e => rw [hrun] at h; cases h
  | ok q =>
    obtain ⟨st', b, m⟩ := q
    rw [hrun] at h
    cases h
    obtain ⟨⟨c, b', m'⟩, hsel, hq⟩ := bind_eq_ok.mp hrun
    cases hq
    unfold selectSecondary at hsel
    rw [if_neg (by have := hm.1; omega)] at hsel
    obtain ⟨⟨r1, b1, m1⟩, hsend, hsel⟩ := bind_eq_ok.mp hsel
    have hsim := sendSelect_sim (ops_sim (reads_sim k env) st.purgeFirst).toSimulates (⟨[], []⟩, 0) mask
    have hplain := bus_sendSelect k env ho hw st.purgeFirst [] mask hm
    rw [hsend] at hsim
    have e := hplain.symm.trans hsim
    cases e
    have hm1 : m1 = 0 := by
      unfold sendSelect at hsend
      obtain ⟨⟨r2, f2⟩, _, hsend⟩ := bind_eq_ok.mp hsend
      by_cases h2 : r2 = -1
      · simp only [h2, if_true] at hsend; cases hsend
      · simp only [h2, if_false] at hsend
        obtain ⟨⟨r3, f3, b3, m3⟩, h3, hsend⟩ := bind_eq_ok.mp hsend
        obtain ⟨⟨r4, f4, b4⟩, _, h3⟩ := bind_eq_ok.mp h3
        have e3 : m3 = 0 := by cases h3; rfl
        by_cases h5 : r3 = -1
        · simp only [h5, if_true] at hsend; cases hsend
        · simp only [h5, if_false] at hsend; cases hsend; exact e3
    subst hm1
    simp only [hresp] at hsel
    rw [if_neg (by decide)] at hsel
    cases n with
    | zero =>
      obtain ⟨⟨r2, f2, b2, m2⟩, hrecv, hsel⟩ := bind_eq_ok.mp hsel
      have := recvFrameR_silent k env ho st.purgeFirst ([] ++ [(selT mask).wire]) 0 Frame.zero rfl rfl
      rw [show ((readsLink k env).ops st.purgeFirst).recv = recvFrame (readsLink k env) st.purgeFirst from rfl] at hrecv
      rw [show evs ((List.range 0).map line) = [] from rfl, this] at hrecv
      cases hrecv
      dsimp only at hsel
      rw [if_pos rfl] at hsel
      cases hsel
      unfold silentWaits at hr
      split at hr <;> omega
    | succ n =>
      have hcons : (List.range (n + 1)).map line = [0xE5] :: (List.range' 1 n).map line := by
        rw [List.range_eq_range', List.range'_succ, List.map_cons, hack]
      rw [hcons] at hsel
      obtain ⟨f', ev, hk, hty⟩ := kindRecvR_ack k env.tty ho (evs ((List.range' 1 n).map line)) Frame.zero
      obtain ⟨⟨r2, f2, b2, m2⟩, hrecv, hsel⟩ := bind_eq_ok.mp hsel
      have hrecv1 : recvFrame (readsLink k env) st.purgeFirst (⟨evs ([0xE5] :: (List.range' 1 n).map line), [] ++ [(selT mask).wire]⟩, 0) Frame.zero =
          .ok (RECV_OK, f', ⟨evs ((List.range' 1 n).map line), [] ++ [(selT mask).wire]⟩, 1) := by
        unfold recvFrame
        rw [show (readsLink k env).recv (⟨evs ([0xE5] :: (List.range' 1 n).map line), [] ++ [(selT mask).wire]⟩, 0) Frame.zero =
          .ok (RECV_OK, f', ⟨evs ((List.range' 1 n).map line), [] ++ [(selT mask).wire]⟩, 1) from by
            show (kindRecvR k env.tty (.data [0xE5] :: evs ((List.range' 1 n).map line)) Frame.zero >>= _) = _
            rw [hk]; rfl]
        simp only [ok_bind]
        have hdir : frameDirection f' = MASK_DIR_S2M := by unfold frameDirection; rw [if_pos hty]
        rw [hdir, if_neg (by decide), if_pos rfl, if_neg hp]
      have hrecv' : recvFrame (readsLink k env) st.purgeFirst (⟨evs ([0xE5] :: (List.range' 1 n).map line), [] ++ [(selT mask).wire]⟩, 0) Frame.zero = _ := hrecv
      rw [hrecv1] at hrecv'
      cases hrecv'
      dsimp only at hsel
      rw [if_neg (by decide), if_neg (by decide), if_pos hty] at hsel
      obtain ⟨⟨c3, b3, m3⟩, hpurge, hsel⟩ := bind_eq_ok.mp hsel
      have := purge_busy k env ho st.purgeFirst _ (line_chunks line hl (List.range' 1 n)).1 _ _ _ _ _ hpurge
      rw [List.length_map, List.length_range'] at this
      dsimp only at hsel
      split at hsel <;> (cases hsel; omega)

/-! ### whole programs -/

/-- C126: what a program makes of the bus takes at most twelve reads for each of its transmissions, six for each receive or purge
of its own, and seven for each byte (and each piece) that arrives; so with what arrives bounded, everything it does is bounded in
time. -/
theorem C126_program (k : Kind) (env : Env) (st : Settings) (waiting : List Ev) (calls : List Call) (st' : Settings) (b : Bus)
    (h : runCalls (busLink k env) (st, ⟨waiting, []⟩) calls = .ok (st', b)) :
    ∃ n, runCalls (readsLink k env) (st, ⟨waiting, []⟩, 0) calls = .ok (st', b, n) ∧
      n ≤ 12 * b.sent.length + 6 * bareReceives calls + 7 * (evWeight waiting + arrivedAll env b.sent) := by
  have hs := calls_sim (reads_sim k env) calls (st, ⟨waiting, []⟩, 0)
  cases hr : runCalls (readsLink k env) (st, ⟨waiting, []⟩, 0) calls with
  | error e => rw [hr, h] at hs; cases hs
  | ok q =>
    obtain ⟨st1, b1, n⟩ := q
    rw [hr, h] at hs
    cases hs
    refine ⟨n, rfl, ?_⟩
    have := calls_debt k env calls _ _ hr
    unfold debt at this
    have h0 : arrivedAll env [] = 0 := rfl
    dsimp only at this
    rw [h0] at this
    simp only [List.length_nil] at this
    dsimp only
    omega

/-- C126: when nobody answers, a program of exchanges waits exactly once for each transmission — twice with `PURGE_S2M`, because
the empty frame of the failed receive passes for one of the slave's, and the receive is repeated. -/
theorem C126_silent (k : Kind) (env : Env) (ho : IsOpen k env) (hw : Writable env) (hd : Dead env) (st : Settings) (calls : List Call)
    (hc : ∀ c ∈ calls, Exchanges c) (st' : Settings) (b : Bus) (h : runCalls (busLink k env) (st, ⟨[], []⟩) calls = .ok (st', b)) :
    st' = st ∧ b.script = [] ∧ runCalls (readsLink k env) (st, ⟨[], []⟩, 0) calls = .ok (st, b, silentWaits st.purgeFirst * b.sent.length) := by
  have hs := calls_sim (reads_sim k env) calls (st, ⟨[], []⟩, 0)
  have H := reads_quiet k env ho hw hd st.purgeFirst
  have key : ∀ (calls : List Call) (b : Bus) (n : Nat) (q : Settings × Bus × Nat), (∀ c ∈ calls, Exchanges c) → b.script = [] →
      runCalls (readsLink k env) (st, b, n) calls = .ok q → q.1 = st ∧ q.2.1.script = [] ∧
        (q.2.2 : Int) - silentWaits st.purgeFirst * q.2.1.sent.length = (n : Int) - silentWaits st.purgeFirst * b.sent.length := by
    intro calls
    induction calls with
    | nil => intro b n q _ hb h; cases h; exact ⟨rfl, hb, rfl⟩
    | cons c cs ih =>
      intro b n q hc hb h
      obtain ⟨⟨st1, b1, n1⟩, h1, h'⟩ := bind_eq_ok.mp h
      have step : st1 = st ∧ b1.script = [] ∧ (n1 : Int) - silentWaits st.purgeFirst * b1.sent.length = (n : Int) - silentWaits st.purgeFirst * b.sent.length := by
        cases hc c (by simp) with
        | ping a =>
          obtain ⟨⟨r, s⟩, h2, h1⟩ := bind_eq_ok.mp h1
          have := sendPing_quiet H hb h2
          cases h1; exact ⟨rfl, this.1, this.2⟩
        | select m =>
          obtain ⟨⟨r, s⟩, h2, h1⟩ := bind_eq_ok.mp h1
          have := select_quiet H hb h2
          cases h1; exact ⟨rfl, this.1, this.2.1⟩
        | probe m =>
          obtain ⟨⟨r, a, s⟩, h2, h1⟩ := bind_eq_ok.mp h1
          have := probe_quiet H hb h2
          cases h1; exact ⟨rfl, this.1, this.2.1⟩
        | scan p m =>
          obtain ⟨⟨r, s⟩, h2, h1⟩ := bind_eq_ok.mp h1
          have := scan_quiet H hb h2
          cases h1; exact ⟨rfl, this.1, this.2⟩
        | readSlave a f hf hf' =>
          obtain ⟨⟨r, g, s⟩, h2, h1⟩ := bind_eq_ok.mp h1
          have := readSlave_quiet H hb hf hf' h2
          cases h1; exact ⟨rfl, this.1, this.2⟩
        | sendrecv a f m hf hf' =>
          obtain ⟨out, h2, h1⟩ := bind_eq_ok.mp h1
          have := sendrecv_quiet H hb hf hf' h2
          injection h1 with h1
          injection h1 with e1 e2
          rw [e2] at this
          exact ⟨e1.symm, this.1, this.2⟩
      obtain ⟨rfl, hb1, e1⟩ := step
      obtain ⟨a1, a2, a3⟩ := ih b1 n1 q (fun c h => hc c (by simp [h])) hb1 h'
      exact ⟨a1, a2, by rw [a3, e1]⟩
  cases hr : runCalls (readsLink k env) (st, ⟨[], []⟩, 0) calls with
  | error e => rw [hr, h] at hs; cases hs
  | ok q =>
    obtain ⟨st1, b1, n⟩ := q
    rw [hr, h] at hs
    cases hs
    obtain ⟨a1, a2, a3⟩ := key calls ⟨[], []⟩ 0 _ hc rfl hr
    dsimp only at a1 a2 a3
    refine ⟨a1, a2, ?_⟩
    have : n = silentWaits st.purgeFirst * b1.sent.length := by
      have a4 : (n : Int) - silentWaits st.purgeFirst * b1.sent.length = 0 := by rw [a3]; simp
      have : (n : Int) = ((silentWaits st.purgeFirst * b1.sent.length : Nat) : Int) := by rw [Int.natCast_mul]; omega
      exact Int.natCast_inj.mp this
    rw [a1, this]

/-! ### how many transmissions that is -/

section
variable (k : Kind) (env : Env) (ho : IsOpen k env) (hw : Writable env) (hd : Dead env)
include ho hw hd

theorem probeLoop_dead (purge : Int) (mask : List Byte) (hm : AddressMask mask) (n : Nat) : ∀ (sent : List (List Byte)),
    probeLoop ((busLink k env).ops purge) ⟨[], sent⟩ mask PROBE_NOTHING n = .ok (PROBE_NOTHING, none, ⟨[], sent ++ List.replicate n (selT mask).wire⟩) := by
  induction n with
  | zero => intro sent; rw [List.replicate_zero, List.append_nil]; rfl
  | succ n ih =>
    intro sent
    rw [probeLoop, select_silence k env ho hw purge sent mask hm (hd _), ok_bind]
    simp only
    rw [if_neg (by decide), if_neg (by decide), ih, List.append_assoc, List.replicate_succ]
    rfl

theorem scanLoop_dead (st : Settings) (pos : Nat) (sub : Bus → List Byte → C (Int × Bus)) (ds : List Byte) (hds : ∀ x ∈ ds, x ∈ decimalDigits) :
    ∀ (mask : List Byte) (sent : List (List Byte)), AddressMask mask →
    ∃ ws : List (List Byte), scanLoop ((busLink k env).ops st.purgeFirst) st pos sub mask ds ⟨[], sent⟩ = .ok (0, ⟨[], sent ++ ws⟩) ∧
      ws.length = ds.length * (st.maxSearchRetry + 1).toNat := by
  induction ds with
  | nil => intro mask sent _; exact ⟨[], by rw [List.append_nil]; rfl, by simp⟩
  | cons x ds ih =>
    intro mask sent hm
    have hx : IsHex x := by
      have := hds x (by simp)
      have all : ∀ c ∈ decimalDigits, IsHex c := by decide
      exact all x this
    have hm' := mask_set_hex mask hm pos x hx
    obtain ⟨ws, h1, h2⟩ := ih (fun y hy => hds y (by simp [hy])) (mask.set pos x) (sent ++ List.replicate (st.maxSearchRetry + 1).toNat (selT (mask.set pos x)).wire) hm'
    refine ⟨List.replicate (st.maxSearchRetry + 1).toNat (selT (mask.set pos x)).wire ++ ws, ?_, ?_⟩
    · rw [scanLoop]
      show (probeSecondary ((busLink k env).ops st.purgeFirst) st ⟨[], sent⟩ (mask.set pos x) >>= _) = _
      unfold probeSecondary
      rw [if_neg (by have := hm'.1; omega), show (0 : Int) = PROBE_NOTHING from rfl, probeLoop_dead k env ho hw hd st.purgeFirst _ hm' _ sent, ok_bind]
      simp only
      rw [if_neg (by decide), if_neg (by decide), if_pos trivial, h1, List.append_assoc]
      rfl
    · rw [List.length_append, List.length_replicate, h2, List.length_cons, Nat.succ_mul]
      omega

theorem sendrecvLoop_dead (purge maxRetry maxFrames : Int) (a : Byte) (n : Nat) : ∀ (sent : List (List Byte)) (req : Frame) (cur : Frame)
    (x : FrameData) (p : RecPtr) (retry : Int), (maxRetry + 1 - retry).toNat = n → ReqFrame a 0 req →
    sendrecvLoop ((busLink k env).ops purge) maxRetry maxFrames ⟨[], sent⟩ req [] cur x p retry 0 =
      .ok ⟨1, [cur], p, ⟨[], sent ++ List.replicate n (Telegram.short (ctl 0) a).wire⟩⟩ := by
  induction n with
  | zero =>
    intro sent req cur x p retry hn _
    rw [sendrecvLoop, dif_pos (by omega), List.replicate_zero, List.append_nil]
    rfl
  | succ n ih =>
    intro sent req cur x p retry hn hreq
    rw [sendrecvLoop, dif_neg (by omega)]
    have hs := bus_send k env ho ⟨[], sent⟩ req _ (ctl_legal a _) (reqFrame_packs hreq)
    have hs' : ((busLink k env).ops purge).send ⟨[], sent⟩ req = .ok (0, fixed req, ⟨[], sent ++ [(Telegram.short (ctl 0) a).wire]⟩) := by
      show (busLink k env).send ⟨[], sent⟩ req = _
      rw [hs, hw, if_pos rfl]
      unfold busAfter
      simp only [List.nil_append]
      rw [hd]
    rw [hs']
    simp only
    rw [if_neg (by decide)]
    have hr : ((busLink k env).ops purge).recv ⟨[], sent ++ [(Telegram.short (ctl 0) a).wire]⟩ cur = _ :=
      recv_silent k env ho purge _ cur
    rw [hr]
    simp only
    rw [if_neg (by decide), if_pos trivial, ih _ _ _ _ _ _ (by omega) (reqFrame_fixed hreq), List.append_assoc, List.replicate_succ]
    rfl

/-- C126: on a dead bus probing a mask takes one wait for each of the `max_search_retry + 1` selections … -/
theorem C126_silent_probe (st : Settings) (mask : List Byte) (hm : AddressMask mask) :
    ∃ b, (Call.probe mask).run (readsLink k env) (st, ⟨[], []⟩, 0) = .ok (st, b, silentWaits st.purgeFirst * (st.maxSearchRetry + 1).toNat) ∧
      b.sent.length = (st.maxSearchRetry + 1).toNat := by
  have h : runCalls (busLink k env) (st, ⟨[], []⟩) [.probe mask] = .ok (st, ⟨[], List.replicate (st.maxSearchRetry + 1).toNat (selT mask).wire⟩) := by
    show ((probeSecondary _ st _ mask >>= _) >>= _) = _
    unfold probeSecondary
    rw [if_neg (by have := hm.1; omega), show (0 : Int) = PROBE_NOTHING from rfl, probeLoop_dead k env ho hw hd st.purgeFirst _ hm _ []]
    rfl
  obtain ⟨_, _, h2⟩ := C126_silent k env ho hw hd st [.probe mask] (by simp only [List.mem_singleton]; rintro c rfl; exact .probe _) _ _ h
  obtain ⟨q, h3, h4⟩ := bind_eq_ok.mp h2
  cases h4
  exact ⟨_, by rw [h3, List.length_replicate], List.length_replicate⟩

/-- … searching it at a wildcard ten times as many … -/
theorem C126_silent_scan (st : Settings) (pos : Nat) (hp : pos < 16) (mask : List Byte) (hm : AddressMask mask) (hf : mask[pos]? = some 70 ∨ mask[pos]? = some 102) :
    ∃ b, (Call.scan pos mask).run (readsLink k env) (st, ⟨[], []⟩, 0) = .ok (st, b, silentWaits st.purgeFirst * (10 * (st.maxSearchRetry + 1).toNat)) ∧
      b.sent.length = 10 * (st.maxSearchRetry + 1).toNat := by
  obtain ⟨ws, e1, e2⟩ := scanLoop_dead k env ho hw hd st pos (scanAt ((busLink k env).ops st.purgeFirst) st (15 - pos)) decimalDigits (fun _ h => h) mask [] hm
  have h : runCalls (busLink k env) (st, ⟨[], []⟩) [.scan pos mask] = .ok (st, ⟨[], ws⟩) := by
    show ((scanRange _ st _ pos mask >>= _) >>= _) = _
    unfold scanRange
    rw [if_neg (by have := hm.1; omega), if_neg (by omega), show 16 - (pos : Int).toNat = (15 - pos) + 1 from by omega, scanAt]
    have hrd : ∃ c, rd mask pos = .ok c ∧ (c = 102 ∨ c = 70) := by
      rcases hf with hf | hf
      · exact ⟨70, by unfold rd; rw [hf], .inr rfl⟩
      · exact ⟨102, by unfold rd; rw [hf], .inl rfl⟩
    obtain ⟨c, hrd, hcc⟩ := hrd
    simp only
    rw [show 15 - (15 - pos) = pos from by omega, hrd, ok_bind, if_pos hcc, e1]
    rfl
  obtain ⟨_, _, h2⟩ := C126_silent k env ho hw hd st [.scan pos mask] (by simp only [List.mem_singleton]; rintro c rfl; exact .scan _ _) _ _ h
  obtain ⟨q, h3, h4⟩ := bind_eq_ok.mp h2
  cases h4
  have e2 : ws.length = 10 * (st.maxSearchRetry + 1).toNat := e2
  exact ⟨_, by rw [h3, e2], e2⟩

/-- … and a request with retries one for each of the `max_data_retry + 1` transmissions. -/
theorem C126_silent_sendrecv (st : Settings) (a : Byte) (mf : Int) :
    ∃ b, (Call.sendrecv a.toNat (frameNew TYPE_ANY) mf).run (readsLink k env) (st, ⟨[], []⟩, 0) =
        .ok (st, b, silentWaits st.purgeFirst * (st.maxDataRetry + 1).toNat) ∧
      b.sent.length = (st.maxDataRetry + 1).toNat := by
  have h : runCalls (busLink k env) (st, ⟨[], []⟩) [.sendrecv a.toNat (frameNew TYPE_ANY) mf] =
      .ok (st, ⟨[], List.replicate (st.maxDataRetry + 1).toNat (Telegram.short (ctl 0) a).wire⟩) := by
    show ((sendrecvRequest _ st _ _ _ mf >>= _) >>= _) = _
    unfold sendrecvRequest
    rw [if_neg (by rw [(isPrimary_iff a.toNat).mpr (by have := a.toNat_lt; omega)]; decide)]
    rw [sendrecvLoop_dead k env ho hw hd st.purgeFirst st.maxDataRetry mf a _ [] _ _ _ _ 0 rfl ⟨rfl, rfl, rfl, by simp, rfl⟩]
    simp only [Int.sub_zero]
    rfl
  obtain ⟨_, _, h2⟩ := C126_silent k env ho hw hd st _ (by simp only [List.mem_singleton]; rintro c rfl; exact .sendrecv _ _ _ rfl rfl) _ _ h
  obtain ⟨q, h3, h4⟩ := bind_eq_ok.mp h2
  cases h4
  exact ⟨_, by rw [h3, List.length_replicate], List.length_replicate⟩

end

/-! ### instances -/

def bytewise (bs : List Byte) : List Ev := bs.map fun b => .data [b]

/-- The bound for a serial line is reached: the longest telegram byte by byte, with two reads in between that bring nothing. -/
def slowLine : List Ev := bytewise [0x68] ++ [.data [], .data []] ++ bytewise ([255, 255, 0x68, 8, 1, 0x72] ++ List.replicate 252 (0 : Byte) ++ [0x7B, 0x16])

example : (match kindRecvR .serial true slowLine Frame.zero with | .ok (o, n) => o.code == RECV_OK && n == 263 | _ => false) = true := by decide +kernel

/-- the bound for a socket, with a signal in between -/
example : (match kindRecvR .tcp false (bytewise [0x10, 0x5B] ++ .eintr :: bytewise [0x01, 0x5C, 0x16]) Frame.zero with
    | .ok (o, n) => o.code == RECV_OK && n == 6 | _ => false) = true := by decide +kernel

example := C126_receive .serial true slowLine Frame.zero
example := C126_lookahead .tcp true (bytewise [0xE5]) [.data [0x10]] Frame.zero
example := C126_receive_settles .serial Frame.zero (fun i => if i % 2 = 0 then .data [0xE5] else .eintr) (by intro h; cases h)
example := C126_receive_settles .tcp Frame.zero (fun i => .data (List.replicate i 0x68)) (by intro _ i; simp)
example := C126_purge_violation .tcp quiet (.inl rfl) PURGE_NONE (fun i => List.replicate (i + 1) 0xE5) (by intro i; simp [List.replicate_succ])

example := C126_select_violation .serial ⟨3, 3, PURGE_M2S⟩ (by decide) allWild ⟨rfl, by decide⟩ (fun _ => [0xE5]) (by simp) rfl

/-- searching the whole bus and probing once more, when the line is cut, with three retries for each: 40 waits and 4 -/
example : (match runCalls (readsLink .serial quiet) (⟨3, 3, PURGE_NONE⟩, ⟨[], []⟩, 0) [.scan 0 allWild, .probe allWild] with
    | .ok (_, b, n) => b.sent.length == 44 && n == 44 | .error _ => false) = true := by decide +kernel

example (b : Bus) (h : runCalls (busLink .serial quiet) (⟨3, 3, PURGE_S2M⟩, ⟨[], []⟩) [.scan 0 allWild, .sendrecv 5 (frameNew TYPE_ANY) 0] = .ok (⟨3, 3, PURGE_S2M⟩, b)) :=
  C126_silent .serial quiet (.inr rfl) (fun _ _ => rfl) (fun _ => rfl) ⟨3, 3, PURGE_S2M⟩ _
    (by simp only [List.mem_cons, List.not_mem_nil, or_false]
        rintro c (rfl | rfl)
        · exact .scan _ _
        · exact .sendrecv _ _ _ rfl rfl) _ _ h

example := C126_silent_probe .tcp quiet (.inl rfl) (fun _ _ => rfl) (fun _ => rfl) ⟨1, 3, PURGE_S2M⟩ allWild ⟨rfl, by decide⟩
example := C126_silent_scan .tcp quiet (.inl rfl) (fun _ _ => rfl) (fun _ => rfl) ⟨1, 3, PURGE_M2S⟩ 7 (by omega) allWild ⟨rfl, by decide⟩ (.inl rfl)
example := C126_silent_sendrecv .tcp quiet (.inl rfl) (fun _ _ => rfl) (fun _ => rfl) ⟨1, 3, PURGE_M2S⟩ 0xFE 5

/-- a program on a bus that answers every transmission with an acknowledgement -/
example : ∃ st' b n, runCalls (readsLink .tcp { quiet with respond := fun _ => [.data [0xE5]] }) (⟨3, 3, PURGE_NONE⟩, ⟨[.data [0x00]], []⟩, 0)
      [.recv Frame.zero, .ping 1 true, .select allWild] = .ok (st', b, n) ∧
    b.sent.length = 2 ∧ n ≤ 12 * 2 + 6 * 1 + 7 * (2 + 4) := by
  have hx : (match runCalls (busLink .tcp { quiet with respond := fun _ => [.data [0xE5]] }) (⟨3, 3, PURGE_NONE⟩, ⟨[.data [0x00]], []⟩)
      [.recv Frame.zero, .ping 1 true, .select allWild] with | .ok (_, b) => b.sent.length == 2 | .error _ => false) = true := by decide +kernel
  cases h : runCalls (busLink .tcp { quiet with respond := fun _ => [.data [0xE5]] }) (⟨3, 3, PURGE_NONE⟩, ⟨[.data [0x00]], []⟩)
      [.recv Frame.zero, .ping 1 true, .select allWild] with
  | error e => rw [h] at hx; cases hx
  | ok q =>
    obtain ⟨st', b⟩ := q
    rw [h] at hx
    have hlen : b.sent.length = 2 := by simpa using hx
    obtain ⟨n, h1, h2⟩ := C126_program _ _ _ _ _ _ _ h
    refine ⟨st', b, n, h1, hlen, ?_⟩
    have ha : arrivedAll { quiet with respond := fun _ => [.data [0xE5]] } b.sent = 4 := by
      unfold arrivedAll
      rw [hlen]; rfl
    rw [hlen, ha] at h2
    exact h2

end Mbus
