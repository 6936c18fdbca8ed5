import Verif.Lemmas.ReadsCost
import Verif.Lemmas.Exchange
/- on a bus on which nobody answers: as many waits as transmissions -/
namespace Mbus
open Spec

/-- a transmission earns `c`, a receive costs `c` and brings nothing -/
structure Quiet {σ : Type} (o : Ops σ) (Q : σ → Prop) (e : σ → Int) (c : Int) : Prop where
  send : ∀ s f r f' s', Q s → o.send s f = .ok (r, f', s') → Q s' ∧ ((r = -1 ∧ e s' = e s) ∨ (r ≠ -1 ∧ e s' + c = e s))
  recv : ∀ s f r f' s', Q s → f.type = TYPE_ANY → f.control = 0 → o.recv s f = .ok (r, f', s') → r = RECV_TIMEOUT ∧ f' = f ∧ Q s' ∧ e s' = e s + c
  purge : ∀ s r s', Q s → o.purge s = .ok (r, s') → Q s' ∧ e s' = e s + c
  progress : ∀ s m, Q s → Q (o.progress s m) ∧ e (o.progress s m) = e s

section
variable {σ : Type} {o : Ops σ} {Q : σ → Prop} {e : σ → Int} {c : Int} (H : Quiet o Q e c)
include H

theorem sent_quiet {s : σ} {f : Frame} {r : Int} {s' : σ} (q : Q s)
    (h : (o.send s f >>= fun q => if q.1 = -1 then .ok (-1, q.2.2) else .ok ((0 : Int), q.2.2)) = .ok (r, s')) :
    Q s' ∧ ((r = -1 ∧ e s' = e s) ∨ (r ≠ -1 ∧ e s' + c = e s)) := by
  obtain ⟨⟨r1, f1, s1⟩, h1, h⟩ := bind_eq_ok.mp h
  obtain ⟨q', a⟩ := H.send _ _ _ _ _ q h1
  by_cases hr : r1 = -1
  · simp only [hr, if_true] at h; cases h; rcases a with a | a
    · exact ⟨q', .inl ⟨rfl, a.2⟩⟩
    · exact absurd hr a.1
  · simp only [hr, if_false] at h; cases h; rcases a with a | a
    · exact absurd a.1 hr
    · exact ⟨q', .inr ⟨by decide, a.2⟩⟩

theorem sendRequest_quiet {s : σ} {a r : Int} {s' : σ} (q : Q s) (h : sendRequest o s a = .ok (r, s')) :
    Q s' ∧ ((r = -1 ∧ e s' = e s) ∨ (r ≠ -1 ∧ e s' + c = e s)) := by
  unfold sendRequest at h
  split at h
  · cases h; exact ⟨q, .inl ⟨rfl, rfl⟩⟩
  · exact sent_quiet H q h

theorem sendPing_quiet {s : σ} {a r : Int} {s' : σ} (q : Q s) (h : sendPing o s a true = .ok (r, s')) : Q s' ∧ e s' = e s := by
  unfold sendPing at h
  split at h
  · cases h; exact ⟨q, rfl⟩
  · obtain ⟨⟨r1, f1, s1⟩, h1, h⟩ := bind_eq_ok.mp h
    obtain ⟨q', a⟩ := H.send _ _ _ _ _ q h1
    by_cases hr : r1 = -1
    · simp only [hr, if_true] at h; cases h
      rcases a with a | a
      · exact ⟨q', a.2⟩
      · exact absurd hr a.1
    · simp only [hr, if_false, if_true] at h
      obtain ⟨⟨r2, s2⟩, h2, h⟩ := bind_eq_ok.mp h
      obtain ⟨q2, b⟩ := H.purge _ _ _ q' h2
      cases h
      rcases a with a | a
      · exact absurd a.1 hr
      · exact ⟨q2, by dsimp only; omega⟩

theorem sendSelect_quiet {s : σ} {m : List Byte} {r : Int} {s' : σ} (q : Q s) (h : sendSelect o s m = .ok (r, s')) :
    Q s' ∧ ((r = -1 ∧ e s' = e s) ∨ (r ≠ -1 ∧ e s' + c = e s)) := by
  unfold sendSelect at h
  obtain ⟨⟨r1, f⟩, _, h⟩ := bind_eq_ok.mp h
  by_cases hr : r1 = -1
  · simp only [hr, if_true] at h; cases h; exact ⟨q, .inl ⟨rfl, rfl⟩⟩
  · simp only [hr, if_false] at h; exact sent_quiet H q h

theorem select_quiet {s : σ} {m : List Byte} {r : Int} {s' : σ} (q : Q s) (h : selectSecondary o s m = .ok (r, s')) :
    Q s' ∧ e s' = e s ∧ (r = PROBE_NOTHING ∨ r = PROBE_ERROR) := by
  unfold selectSecondary at h
  split at h
  · cases h; exact ⟨q, rfl, .inr rfl⟩
  obtain ⟨⟨r1, s1⟩, h1, h⟩ := bind_eq_ok.mp h
  obtain ⟨q1, a⟩ := sendSelect_quiet H q h1
  by_cases hr : r1 = -1
  · simp only [hr, if_true] at h; cases h
    rcases a with a | a
    · exact ⟨q1, a.2, .inr rfl⟩
    · exact absurd hr a.1
  simp only [hr, if_false] at h
  rcases a with a | a
  · exact absurd a.1 hr
  obtain ⟨⟨r2, f2, s2⟩, h2, h⟩ := bind_eq_ok.mp h
  obtain ⟨rfl, rfl, q2, b⟩ := H.recv _ _ _ _ _ q1 rfl rfl h2
  dsimp only at h
  rw [if_pos rfl] at h
  cases h
  exact ⟨q2, by omega, .inl rfl⟩

theorem probeLoop_quiet (m : List Byte) (n : Nat) : ∀ (s : σ) (ret r : Int) (a : Option (List Byte)) (s' : σ), Q s → (ret = PROBE_NOTHING ∨ ret = PROBE_ERROR) →
    probeLoop o s m ret n = .ok (r, a, s') → Q s' ∧ e s' = e s ∧ (r = PROBE_NOTHING ∨ r = PROBE_ERROR) := by
  induction n with
  | zero => intro s ret r a s' q hr h; cases h; exact ⟨q, rfl, hr⟩
  | succ n ih =>
    intro s ret r a s' q hr h
    rw [probeLoop] at h
    obtain ⟨⟨r1, s1⟩, h1, h⟩ := bind_eq_ok.mp h
    obtain ⟨q1, b, hr1⟩ := select_quiet H q h1
    dsimp only at h
    rw [if_neg (by rcases hr1 with rfl | rfl <;> decide)] at h
    split at h
    · cases h; exact ⟨q1, b, hr1⟩
    · obtain ⟨a1, a2, a3⟩ := ih _ _ _ _ _ q1 hr1 h
      exact ⟨a1, by omega, a3⟩

theorem probe_quiet {st : Settings} {s : σ} {m : List Byte} {r : Int} {a : Option (List Byte)} {s' : σ} (q : Q s) (h : probeSecondary o st s m = .ok (r, a, s')) :
    Q s' ∧ e s' = e s ∧ (r = PROBE_NOTHING ∨ r = PROBE_ERROR) := by
  unfold probeSecondary at h
  split at h
  · cases h; exact ⟨q, rfl, .inr rfl⟩
  · exact probeLoop_quiet H _ _ _ _ _ _ _ q (.inl rfl) h

theorem scanLoop_quiet (st : Settings) (pos : Nat) (sub : σ → List Byte → C (Int × σ)) (ds : List Byte) :
    ∀ (m : List Byte) (s : σ) (r : Int) (s' : σ), Q s → scanLoop o st pos sub m ds s = .ok (r, s') → Q s' ∧ e s' = e s := by
  induction ds with
  | nil => intro m s r s' q h; cases h; exact ⟨q, rfl⟩
  | cons x ds ih =>
    intro m s r s' q h
    rw [scanLoop] at h
    obtain ⟨q0, a0⟩ := H.progress s (m.set pos x) q
    obtain ⟨⟨r1, a1, s1⟩, h1, h⟩ := bind_eq_ok.mp h
    obtain ⟨q1, b, hr1⟩ := probe_quiet H q0 h1
    dsimp only at h
    rw [if_neg (by rcases hr1 with rfl | rfl <;> decide), if_neg (by rcases hr1 with rfl | rfl <;> decide)] at h
    split at h
    · obtain ⟨c1, c2⟩ := ih _ _ _ _ q1 h
      exact ⟨c1, by omega⟩
    · cases h; exact ⟨q1, by omega⟩

theorem scanAt_quiet (st : Settings) (n : Nat) : ∀ (s : σ) (m : List Byte) (r : Int) (s' : σ), Q s → scanAt o st n s m = .ok (r, s') → Q s' ∧ e s' = e s := by
  induction n with
  | zero => intro s m r s' q h; cases h; exact ⟨q, rfl⟩
  | succ n ih =>
    intro s m r s' q h
    rw [scanAt] at h
    obtain ⟨c, _, h⟩ := bind_eq_ok.mp h
    split at h
    · exact scanLoop_quiet H st _ _ _ _ _ _ _ q h
    split at h
    · obtain ⟨⟨r1, s1⟩, h1, h⟩ := bind_eq_ok.mp h
      have := ih _ _ _ _ q h1
      cases h; exact this
    · exact scanLoop_quiet H st _ _ _ _ _ _ _ q h

theorem scan_quiet {st : Settings} {s : σ} {pos : Int} {m : List Byte} {r : Int} {s' : σ} (q : Q s) (h : scanRange o st s pos m = .ok (r, s')) : Q s' ∧ e s' = e s := by
  unfold scanRange at h
  split at h
  · cases h; exact ⟨q, rfl⟩
  split at h
  · cases h; exact ⟨q, rfl⟩
  · exact scanAt_quiet H _ _ _ _ _ _ q h

theorem readSlave_quiet {s : σ} {a : Address} {f : Frame} {r : Int} {f' : Frame} {s' : σ} (q : Q s) (hf : f.type = TYPE_ANY) (hc : f.control = 0)
    (h : readSlave o s a f = .ok (r, f', s')) : Q s' ∧ e s' = e s := by
  have last : ∀ (r1 : Int) s1, Q s1 → ((r1 = -1 ∧ e s1 = e s) ∨ (r1 ≠ -1 ∧ e s1 + c = e s)) → (if r1 = (-1 : Int) then .ok (-1, f, s1) else do
      let (c, reply, s) ← o.recv s1 f
      if c ≠ 0 then .ok (-1, reply, s) else .ok (0, reply, s)) = .ok (r, f', s') → Q s' ∧ e s' = e s := by
    intro r1 s1 q1 ha h
    by_cases hr : r1 = -1
    · simp only [hr, if_true] at h; cases h
      rcases ha with ha | ha
      · exact ⟨q1, ha.2⟩
      · exact absurd hr ha.1
    simp only [hr, if_false] at h
    rcases ha with ha | ha
    · exact absurd ha.1 hr
    obtain ⟨⟨r2, f2, s2⟩, h2, h3⟩ := bind_eq_ok.mp h
    obtain ⟨rfl, _, q2, b⟩ := H.recv _ _ _ _ _ q1 hf hc h2
    dsimp only at h3
    split at h3 <;> (cases h3; exact ⟨q2, by omega⟩)
  unfold readSlave at h
  cases a with
  | primary a =>
    obtain ⟨⟨r1, s1⟩, h1, h⟩ := bind_eq_ok.mp h
    have := sendRequest_quiet H q h1
    exact last r1 s1 this.1 this.2 h
  | secondary t =>
    obtain ⟨⟨p, s0⟩, h0, h⟩ := bind_eq_ok.mp h
    obtain ⟨q0, a0, hp⟩ := select_quiet H q h0
    dsimp only at h
    have stop := last (-1) s0 q0 (.inl ⟨rfl, a0⟩)
    rcases hp with rfl | rfl
    · exact stop h
    · exact stop h

theorem sendrecvLoop_quiet (maxRetry maxFrames : Int) (n : Nat) : ∀ (s : σ) (req : Frame) (done : List Frame) (cur : Frame)
    (x : FrameData) (p : RecPtr) (retry count : Int), (maxRetry + 1 - retry).toNat ≤ n → Q s → cur.type = TYPE_ANY → cur.control = 0 →
    ∀ out, sendrecvLoop o maxRetry maxFrames s req done cur x p retry count = .ok out → Q out.state ∧ e out.state = e s := by
  induction n with
  | zero =>
    intro s req done cur x p retry count hn q hf hc out h
    rw [sendrecvLoop, dif_pos (by omega)] at h
    cases h; exact ⟨q, rfl⟩
  | succ n ih =>
    intro s req done cur x p retry count hn q hf hc out h
    by_cases hr : retry > maxRetry
    · rw [sendrecvLoop, dif_pos hr] at h
      cases h; exact ⟨q, rfl⟩
    rw [sendrecvLoop, dif_neg hr] at h
    cases h1 : o.send s req with
    | error er => rw [h1] at h; cases h
    | ok t =>
      obtain ⟨r1, req1, s1⟩ := t
      rw [h1] at h
      obtain ⟨q1, a⟩ := H.send _ _ _ _ _ q h1
      dsimp only at h
      by_cases hm : r1 = -1
      · rw [if_pos hm] at h; cases h
        rcases a with a | a
        · exact ⟨q1, a.2⟩
        · exact absurd hm a.1
      rw [if_neg hm] at h
      rcases a with a | a
      · exact absurd a.1 hm
      cases h2 : o.recv s1 cur with
      | error er => rw [h2] at h; cases h
      | ok t =>
        obtain ⟨r2, f2, s2⟩ := t
        rw [h2] at h
        obtain ⟨rfl, rfl, q2, b⟩ := H.recv _ _ _ _ _ q1 hf hc h2
        dsimp only at h
        rw [if_neg (by decide), if_pos rfl] at h
        obtain ⟨c1, c2⟩ := ih _ _ _ _ _ _ _ _ (by omega) q2 hf hc _ h
        exact ⟨c1, by omega⟩

theorem sendrecv_quiet {st : Settings} {s : σ} {a : Int} {reply : Frame} {mf : Int} {out : SrOut σ} (q : Q s) (hf : reply.type = TYPE_ANY) (hc : reply.control = 0)
    (h : sendrecvRequest o st s a reply mf = .ok out) : Q out.state ∧ e out.state = e s := by
  unfold sendrecvRequest at h
  split at h
  · cases h; exact ⟨q, rfl⟩
  · exact sendrecvLoop_quiet H _ _ _ _ _ _ _ _ _ _ _ (Nat.le_refl _) q hf hc _ h

end

/-- the reads of one receive on a silent line -/
theorem kindRecvR_silent (k : Kind) (tty : Bool) (ho : k = .tcp ∨ tty = true) (f : Frame) :
    kindRecvR k tty [] f = .ok (⟨RECV_TIMEOUT, f, [], none⟩, 1) := by
  cases k with
  | tcp =>
    show tcpLoopR [] f _ 0 0 0 = _
    rw [tcpLoopR, if_neg (by decide)]
    rfl
  | serial =>
    rcases ho with h | h
    · cases h
    · subst h
      show serialLoopR [] f _ 0 0 0 0 = _
      rw [serialLoopR, if_neg (by decide)]
      rfl

theorem recvR_silent (k : Kind) (env : Env) (ho : IsOpen k env) (sent : List (List Byte)) (n : Nat) (f : Frame) :
    (readsLink k env).recv (⟨[], sent⟩, n) f = .ok (RECV_TIMEOUT, f, ⟨[], sent⟩, n + 1) := by
  show (kindRecvR k env.tty [] f >>= _) = _
  rw [kindRecvR_silent k env.tty ho f]; rfl

theorem recvFrameR_silent (k : Kind) (env : Env) (ho : IsOpen k env) (purge : Int) (sent : List (List Byte)) (n : Nat) (f : Frame) (hf : f.type = TYPE_ANY) (hc : f.control = 0) :
    recvFrame (readsLink k env) purge (⟨[], sent⟩, n) f = .ok (RECV_TIMEOUT, f, ⟨[], sent⟩, n + silentWaits purge) := by
  have hd : frameDirection f = MASK_DIR_S2M := by
    unfold frameDirection; rw [hf, hc]; rfl
  unfold recvFrame silentWaits
  simp only [recvR_silent k env ho, ok_bind, hd]
  rw [if_neg (by decide), if_pos trivial]
  split <;> rfl

theorem purgeR_silent (k : Kind) (env : Env) (ho : IsOpen k env) (purge : Int) (sent : List (List Byte)) (n : Nat) :
    purgeFrames (readsLink k env) purge (⟨[], sent⟩, n) = .ok (0, ⟨[], sent⟩, n + silentWaits purge) := by
  unfold purgeFrames
  rw [purgeLoop]
  split
  · next h => rw [recvFrameR_silent k env ho purge sent n Frame.zero rfl rfl] at h; cases h
  · next h =>
    rw [recvFrameR_silent k env ho purge sent n Frame.zero rfl rfl] at h
    cases h
    rw [dif_pos (by decide)]

theorem sendFrame_wrote {t : Bool} {junk : Nat → Byte} {wret : Nat → Int} {f g : Frame} {r : Int} {bs : List Byte} (hw : ∀ n : Nat, wret n = n)
    (h2 : sendFrame t junk wret f = .ok (r, g, some bs)) : r = 0 := by
  unfold sendFrame at h2
  split at h2
  · cases h2
  obtain ⟨⟨len, g, bf⟩, _, h2⟩ := bind_eq_ok.mp h2
  dsimp only at h2
  split at h2
  · cases h2
  split at h2
  · cases h2
  rw [hw, if_pos (by omega)] at h2
  cases h2; rfl

theorem reads_quiet (k : Kind) (env : Env) (ho : IsOpen k env) (hw : Writable env) (hd : Dead env) (purge : Int) :
    Quiet ((readsLink k env).ops purge) (fun b => b.1.script = []) (fun b => b.2 - silentWaits purge * b.1.sent.length) (silentWaits purge) where
  send := by
    rintro ⟨⟨script, sent⟩, n⟩ f r f' s' q h
    dsimp only at q
    subst q
    obtain ⟨⟨r1, f1, b1⟩, h1, h⟩ := bind_eq_ok.mp h
    cases h
    obtain ⟨⟨r2, f2, w⟩, h2, h1⟩ := bind_eq_ok.mp h1
    cases w with
    | none =>
      have := sendFrame_unwritten h2
      cases h1
      exact ⟨rfl, .inl ⟨this, rfl⟩⟩
    | some bs =>
      have : r2 = 0 := sendFrame_wrote (hw _) h2
      subst this
      cases h1
      refine ⟨?_, .inr ⟨by decide, ?_⟩⟩
      · show [] ++ env.respond _ = []
        rw [hd]; rfl
      · dsimp only
        rw [List.length_append, List.length_singleton]
        have : ((sent.length + 1 : Nat) : Int) = (sent.length : Int) + 1 := by omega
        rw [this, Int.mul_add]
        omega
  recv := by
    rintro ⟨⟨script, sent⟩, n⟩ f r f' s' q hf hc h
    dsimp only at q
    subst q
    have e : recvFrame (readsLink k env) purge (⟨[], sent⟩, n) f = .ok (r, f', s') := h
    rw [recvFrameR_silent k env ho purge sent n f hf hc] at e
    cases e
    exact ⟨rfl, rfl, rfl, by dsimp only; omega⟩
  purge := by
    rintro ⟨⟨script, sent⟩, n⟩ r s' q h
    dsimp only at q
    subst q
    have e : purgeFrames (readsLink k env) purge (⟨[], sent⟩, n) = .ok (r, s') := h
    rw [purgeR_silent k env ho purge sent n] at e
    cases e
    exact ⟨rfl, by dsimp only; omega⟩
  progress := fun s m q => ⟨q, rfl⟩

end Mbus
