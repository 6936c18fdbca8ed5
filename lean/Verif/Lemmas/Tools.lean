import Verif.Spec.Tools
import Verif.Lemmas.ScanLog
import Verif.Lemmas.SelectWire
import Verif.Lemmas.Fails
import Verif.Lemmas.ScanDefined
/- the tools: logs, passivity, behaviour on the wire -/
namespace Mbus
open Spec

section
variable {σ : Type} (o : Ops σ)

theorem ping_log (s : σ) (log : List Act) (a : Nat) (ha : a ≤ 255) (r : Int) (s' : σ × List Act)
    (h : sendPing o.logged (s, log) a false = .ok (r, s')) :
    ∃ f c, PingFrame a f ∧ s'.2 = log ++ [.sent f c] ∧ ((c = -1 ∧ r = -1) ∨ (c ≠ -1 ∧ r = 0)) := by
  unfold sendPing at h
  rw [if_neg (by rw [(isPrimary_iff (a : Int)).mpr (by omega)]; decide)] at h
  generalize hf : ({ frameNew TYPE_SHORT with control := MASK_SND_NKE ||| MASK_DIR_M2S, address := UInt8.ofNat (a : Int).toNat } : Frame) = f at h
  simp only [logged_send_eq] at h
  have hc : PingFrame a f := by subst hf; exact ⟨rfl, rfl, rfl⟩
  cases hs : o.send s f with
  | error e => rw [hs] at h; cases h
  | ok q =>
    obtain ⟨c, f', s1⟩ := q
    rw [hs] at h
    simp only [ok_bind] at h
    by_cases hc1 : c = -1
    · rw [if_pos hc1] at h
      cases h
      exact ⟨f, c, hc, rfl, .inl ⟨hc1, rfl⟩⟩
    · rw [if_neg hc1, if_neg (by decide)] at h
      cases h
      exact ⟨f, c, hc, rfl, .inr ⟨hc1, rfl⟩⟩

/-- the rest of the loop body of the scan -/
def finishScan (a : Int) (q : Int × Frame × σ) : C (List Line × σ) :=
  if q.1 = RECV_TIMEOUT then .ok ([], q.2.2)
  else if q.1 = RECV_INVALID then do
    let (_, s) ← o.purge q.2.2
    .ok ([.collision a], s)
  else if q.2.1.type = TYPE_ACK then do
    let (p, s) ← o.purge q.2.2
    if p ≠ 0 then .ok ([.collision a], s) else .ok ([.found a], s)
  else .ok ([], q.2.2)

theorem scanAddress_eq (st : Settings) (s : σ) (a : Int) : scanAddress o st s a = pingAddress o st s a >>= finishScan o a := rfl

theorem honest_logged (h : Honest o) : Honest o.logged := by
  rintro ⟨s, log⟩ f c g ⟨s', log'⟩ hf hr hc
  rw [logged_recv_eq] at hr
  cases hq : o.recv s f with
  | error e => rw [hq] at hr; cases hr
  | ok q =>
    obtain ⟨c1, g1, s1⟩ := q
    rw [hq] at hr
    cases hr
    exact h s f _ _ _ hf hq hc

theorem pinging_of_run (hh : Honest o) (a : Nat) (ha : a ≤ 255) (n : Nat) : ∀ (s : σ) (log : List Act) (reply : Frame) (ret : Int)
    (ls : List Line) (s' : σ × List Act), reply.type ≠ 1 → (ret = RECV_TIMEOUT ∨ n ≠ 0) →
    (pingLoop o.logged a n (s, log) reply ret >>= finishScan o.logged a) = .ok (ls, s') →
    ∃ l, s'.2 = log ++ l ∧ Pinging a n ls l := by
  induction n with
  | zero =>
    intro s log reply ret ls s' hf hret h
    have hret : ret = RECV_TIMEOUT := by rcases hret with h | h; exact h; exact absurd rfl h
    subst hret
    unfold pingLoop at h
    rw [ok_bind] at h
    unfold finishScan at h
    rw [if_pos rfl] at h
    cases h
    exact ⟨[], by simp, .exhausted⟩
  | succ n ih =>
    intro s log reply ret ls s' hf _ h
    unfold pingLoop at h
    cases hp : sendPing o.logged (s, log) a false with
    | error e => rw [hp] at h; cases h
    | ok q =>
      obtain ⟨r, s1, log1⟩ := q
      obtain ⟨f, c, hc, hl, hr⟩ := ping_log o s log a ha r _ hp
      simp only at hl
      subst hl
      rw [hp, ok_bind] at h
      dsimp only at h
      rcases hr with ⟨rfl, rfl⟩ | ⟨hc1, rfl⟩
      · rw [if_pos rfl, ok_bind] at h
        unfold finishScan at h
        dsimp only at h
        rw [if_neg (by decide), if_neg (by decide), if_neg (show ¬ reply.type = TYPE_ACK from hf)] at h
        cases h
        exact ⟨_, rfl, .sendFailed n f hc⟩
      · rw [if_neg (by decide), logged_recv_eq] at h
        cases hq : o.recv s1 reply with
        | error e => rw [hq] at h; cases h
        | ok q =>
          obtain ⟨rc, g, s2⟩ := q
          rw [hq] at h
          simp only [ok_bind] at h
          by_cases ht : rc = RECV_TIMEOUT
          · rw [if_neg (by simpa using ht)] at h
            subst ht
            obtain ⟨l, h1, h2⟩ := ih s2 _ g RECV_TIMEOUT ls s' (hh _ _ _ _ _ hf hq (by decide)) (.inl rfl) h
            exact ⟨.sent f c :: .received RECV_TIMEOUT g :: l, by rw [h1]; simp, .again n f c g ls l hc hc1 h2⟩
          · rw [if_pos ht, ok_bind] at h
            unfold finishScan at h
            dsimp only at h
            rw [if_neg ht] at h
            by_cases hi : rc = RECV_INVALID
            · subst hi
              rw [if_pos rfl, logged_purge_eq] at h
              cases hu : o.purge s2 with
              | error e => rw [hu] at h; cases h
              | ok q =>
                rw [hu] at h
                cases h
                exact ⟨[.sent f c, .received RECV_INVALID g, .purged q.1], by simp, .garbage n f c g _ hc hc1⟩
            · rw [if_neg hi] at h
              by_cases hk : g.type = TYPE_ACK
              · rw [if_pos hk, logged_purge_eq] at h
                have hok : rc = RECV_OK := Decidable.byContradiction fun hne => hh _ _ _ _ _ hf hq hne hk
                subst hok
                cases hu : o.purge s2 with
                | error e => rw [hu] at h; cases h
                | ok q =>
                  obtain ⟨p, s3⟩ := q
                  rw [hu] at h
                  simp only [ok_bind] at h
                  by_cases hp0 : p ≠ 0
                  · rw [if_pos hp0] at h
                    cases h
                    exact ⟨[.sent f c, .received RECV_OK g, .purged p], by simp, .crowd n f c g p hc hc1 hk hp0⟩
                  · rw [if_neg hp0] at h
                    cases h
                    have hp0 : p = 0 := Decidable.of_not_not hp0
                    subst hp0
                    exact ⟨[.sent f c, .received RECV_OK g, .purged 0], by simp, .found n f c g hc hc1 hk⟩
              · rw [if_neg hk] at h
                cases h
                exact ⟨[.sent f c, .received rc g], by simp, .other n f c rc g hc hc1 ht hi (fun _ => hk)⟩

/-- what happened and was printed for the addresses from `a` on -/
theorem scanFrom_parts (hh : Honest o) (st : Settings) (hst : 0 ≤ st.maxSearchRetry) (n : Nat) : ∀ (a : Nat) (s : σ) (log : List Act) (ls : List Line)
    (s' : σ × List Act), a + n ≤ 256 → scanFrom o.logged st n a (s, log) = .ok (ls, s') →
    ∃ parts : List (List Line × List Act), parts.length = n ∧ ls = parts.flatMap (·.1) ∧ s'.2 = log ++ parts.flatMap (·.2) ∧
      ∀ i, (hi : i < parts.length) → Pinging (a + i) (st.maxSearchRetry + 1).toNat parts[i].1 parts[i].2 := by
  induction n with
  | zero =>
    intro a s log ls s' _ h
    unfold scanFrom at h
    cases h
    exact ⟨[], rfl, rfl, by simp, by intro i hi; simp at hi⟩
  | succ n ih =>
    intro a s log ls s' hn h
    unfold scanFrom at h
    cases h1 : scanAddress o.logged st (s, log) a with
    | error e => rw [h1] at h; cases h
    | ok q =>
      obtain ⟨l, s1, log1⟩ := q
      rw [h1, ok_bind] at h
      dsimp only at h
      cases h2 : scanFrom o.logged st n (a + 1) (s1, log1) with
      | error e => rw [h2] at h; cases h
      | ok q =>
        obtain ⟨ls2, s2⟩ := q
        rw [h2, ok_bind] at h
        cases h
        rw [scanAddress_eq] at h1
        obtain ⟨k, e1, e2⟩ := pinging_of_run o hh a (by omega) _ s log Frame.zero RECV_ERROR l _ (by decide) (.inr (by omega)) h1
        simp only at e1
        subst e1
        obtain ⟨parts, p1, p2, p3, p4⟩ := ih (a + 1) s1 _ ls2 s2 (by omega) h2
        refine ⟨(l, k) :: parts, by simp [p1], by simp [p2], by rw [p3]; simp, ?_⟩
        intro i hi
        cases i with
        | zero => exact e2
        | succ i =>
          have := p4 i (by simpa using hi)
          rw [show a + 1 + i = a + (i + 1) by omega] at this
          exact this

end

/-! passivity -/

section
variable {σ : Type} (o : Ops σ)

theorem sendPing_passive (s : σ) (log : List Act) (a : Int) (p : Bool) : dropLog (sendPing o.logged (s, log) a p) = sendPing o s a p := by
  unfold sendPing
  by_cases ha : isPrimaryAddress a = false
  · rw [if_pos ha, if_pos ha]; rfl
  rw [if_neg ha, if_neg ha]
  simp only [logged_send_eq]
  generalize ({ frameNew TYPE_SHORT with control := MASK_SND_NKE ||| MASK_DIR_M2S, address := UInt8.ofNat a.toNat } : Frame) = f
  cases o.send s f with
  | error e => rfl
  | ok q =>
    simp only [ok_bind]
    by_cases hc : q.1 = -1
    · rw [if_pos hc, if_pos hc]; rfl
    · rw [if_neg hc, if_neg hc]
      cases p with
      | false => rfl
      | true =>
        rw [if_pos rfl, if_pos rfl]
        exact bind_dropLog _ _ (purge_passive o _ _) _ _ (fun r s log => rfl)

theorem recv_passive (s : σ) (log : List Act) (f : Frame) : dropLog3 (o.logged.recv (s, log) f) = o.recv s f := by
  rw [logged_recv_eq]
  cases o.recv s f <;> rfl

theorem bind_dropLog33 {α β γ δ : Type} (x : C (α × β × σ × List Act)) (y : C (α × β × σ)) (h : dropLog3 x = y)
    (k : α × β × σ × List Act → C (γ × δ × σ × List Act)) (k' : α × β × σ → C (γ × δ × σ))
    (hk : ∀ r b s log, dropLog3 (k (r, b, s, log)) = k' (r, b, s)) : dropLog3 (x >>= k) = y >>= k' := by
  subst h
  cases x with
  | error e => rfl
  | ok q => exact hk q.1 q.2.1 q.2.2.1 q.2.2.2

theorem pingLoop_passive (a : Int) (n : Nat) : ∀ (s : σ) (log : List Act) (f : Frame) (ret : Int),
    dropLog3 (pingLoop o.logged a n (s, log) f ret) = pingLoop o a n s f ret := by
  induction n with
  | zero => intro s log f ret; rfl
  | succ n ih =>
    intro s log f ret
    unfold pingLoop
    refine bind_dropLog3 _ _ (sendPing_passive o s log a false) _ _ (fun r s log => ?_)
    dsimp only
    by_cases hr : r = -1
    · rw [if_pos hr, if_pos hr]; rfl
    rw [if_neg hr, if_neg hr]
    refine bind_dropLog33 _ _ (recv_passive o s log f) _ _ (fun rc g s log => ?_)
    dsimp only
    by_cases ht : rc ≠ RECV_TIMEOUT
    · rw [if_pos ht, if_pos ht]; rfl
    · rw [if_neg ht, if_neg ht]
      exact ih s log g rc

theorem finishScan_passive (a : Int) (r : Int) (f : Frame) (s : σ) (log : List Act) :
    dropLog (finishScan o.logged a (r, f, s, log)) = finishScan o a (r, f, s) := by
  unfold finishScan
  dsimp only
  split
  · rfl
  split
  · exact bind_dropLog _ _ (purge_passive o s log) _ _ (fun r s log => rfl)
  split
  · refine bind_dropLog _ _ (purge_passive o s log) _ _ (fun r s log => ?_)
    dsimp only
    split <;> rfl
  · rfl

theorem scanFrom_passive (st : Settings) (n : Nat) : ∀ (a : Nat) (s : σ) (log : List Act),
    dropLog (scanFrom o.logged st n a (s, log)) = scanFrom o st n a s := by
  induction n with
  | zero => intro a s log; rfl
  | succ n ih =>
    intro a s log
    unfold scanFrom
    refine bind_dropLog _ _ ?_ _ _ (fun l s log => ?_)
    · rw [scanAddress_eq, scanAddress_eq]
      exact bind_dropLog' _ _ (pingLoop_passive o a _ s log _ _) _ _ (fun r f s log => finishScan_passive o a r f s log)
    · dsimp only
      exact bind_dropLog _ _ (ih (a + 1) s log) _ _ (fun l s log => rfl)

end

/-! both transports are honest -/

theorem bus_honest (k : Kind) (env : Env) (purge : Int) (hp : purge ≠ PURGE_S2M) : Honest ((busLink k env).ops purge) := by
  intro s f c g s' hf hr hne hg
  change recvFrame (busLink k env) purge s f = _ at hr
  unfold recvFrame at hr
  rw [bind_eq_ok] at hr
  obtain ⟨⟨c1, g1, t1⟩, e1, e2⟩ := hr
  simp only at e2
  have fails := bus_recv_fails parse_no_ack k env
  by_cases hc1 : c1 = RECV_OK
  · by_cases hack : g1.type = TYPE_ACK
    · rw [show frameDirection g1 = MASK_DIR_S2M from if_pos hack, if_neg (by decide), if_pos rfl, if_neg hp] at e2
      cases e2; exact hne hc1
    · split at e2
      · split at e2
        · exact fails _ _ _ _ _ hack e2 hne hg
        · cases e2; exact hack hg
      · split at e2
        · cases e2; exact hack hg
        · cases e2; exact hack hg
  · have hack : g1.type ≠ TYPE_ACK := fails _ _ _ _ _ hf e1 hc1
    split at e2
    · split at e2
      · exact fails _ _ _ _ _ hack e2 hne hg
      · cases e2; exact hack hg
    · split at e2
      · cases e2; exact hack hg
      · cases e2; exact hack hg

/-! the scan on the wire -/

theorem chunks_nil (cs : List (List Byte)) (hc : Chunks cs) (h : cs.flatten = []) : cs = [] := by
  cases cs with
  | nil => rfl
  | cons c cs =>
    simp only [List.flatten_cons, List.append_eq_nil_iff] at h
    exact absurd h.1 (hc c (by simp))

theorem filter_byte (addrs : List Byte) (a : Nat) (ha : a ≤ 255) : addrs.filter (· = UInt8.ofNat a) = addrs.filter (·.toNat = a) := by
  apply List.filter_congr
  intro b _
  rw [decide_eq_decide]
  constructor
  · rintro rfl; simp; omega
  · rintro rfl; simp

theorem bus_sendPing (k : Kind) (env : Env) (ho : IsOpen k env) (hw : Writable env) (purge : Int) (sent : List (List Byte)) (a : Nat) (ha : a ≤ 255) :
    sendPing ((busLink k env).ops purge) ⟨[], sent⟩ a false =
      .ok (0, ⟨env.respond (sent ++ [pingWire (UInt8.ofNat a)]), sent ++ [pingWire (UInt8.ofNat a)]⟩) := by
  have hs := bus_send k env ho ⟨[], sent⟩ _ _ (show Telegram.Legal (.short 0x40 (UInt8.ofNat a)) from (by decide : (0x40 : Byte) ∈ shortCodes))
    (packs_short 0x40 (UInt8.ofNat a))
  unfold sendPing
  rw [if_neg (by rw [(isPrimary_iff (a : Int)).mpr (by omega)]; decide)]
  show ((busLink k env).send ⟨[], sent⟩ { frameNew TYPE_SHORT with control := 0x40, address := UInt8.ofNat (a : Int).toNat } >>= _) = _
  rw [show (a : Int).toNat = a from rfl, hs, hw, if_pos rfl, ok_bind]
  simp only
  rw [if_neg (by decide), if_neg (by decide)]
  rfl

section
variable (k : Kind) (env : Env) (ho : IsOpen k env) (hw : Writable env) (purge : Int) (hp : purge ≠ PURGE_S2M)
include ho hw

/-- nobody answers -/
theorem ping_silence (a : Nat) (ha : a ≤ 255) (hr : ∀ sent, env.respond (sent ++ [pingWire (UInt8.ofNat a)]) = []) (n : Nat) :
    ∀ (sent : List (List Byte)) (ret : Int), (ret = RECV_TIMEOUT ∨ n ≠ 0) →
    pingLoop ((busLink k env).ops purge) a n ⟨[], sent⟩ Frame.zero ret =
      .ok (RECV_TIMEOUT, Frame.zero, ⟨[], sent ++ List.replicate n (pingWire (UInt8.ofNat a))⟩) := by
  induction n with
  | zero =>
    intro sent ret h
    have h : ret = RECV_TIMEOUT := by rcases h with h | h; exact h; exact absurd rfl h
    subst h
    simp [pingLoop]
  | succ n ih =>
    intro sent ret _
    unfold pingLoop
    rw [bus_sendPing k env ho hw purge sent a ha, ok_bind]
    dsimp only
    rw [if_neg (by decide), hr]
    show (recvFrame (busLink k env) purge ⟨[], _⟩ Frame.zero >>= _) = _
    rw [recv_silent k env ho, ok_bind]
    dsimp only
    rw [if_neg (by simp), ih _ _ (.inl rfl)]
    simp [List.replicate_succ]

theorem scanAddress_silence (st : Settings) (hst : 0 ≤ st.maxSearchRetry) (a : Nat) (ha : a ≤ 255)
    (hr : ∀ sent, env.respond (sent ++ [pingWire (UInt8.ofNat a)]) = []) (sent : List (List Byte)) :
    scanAddress ((busLink k env).ops purge) st ⟨[], sent⟩ a =
      .ok ([], ⟨[], sent ++ List.replicate (st.maxSearchRetry + 1).toNat (pingWire (UInt8.ofNat a))⟩) := by
  rw [scanAddress_eq, pingAddress, ping_silence k env ho hw purge a ha hr _ sent _ (.inr (by omega)), ok_bind]
  rfl

include hp

theorem scanAddress_garbage (st : Settings) (hst : 0 ≤ st.maxSearchRetry) (a : Nat) (ha : a ≤ 255) (sent : List (List Byte))
    (cs : List (List Byte)) (hc : Chunks cs) (hr : env.respond (sent ++ [pingWire (UInt8.ofNat a)]) = evs cs) (hg : Garbled cs.flatten) :
    scanAddress ((busLink k env).ops purge) st ⟨[], sent⟩ a = .ok ([.collision a], ⟨[], sent ++ [pingWire (UInt8.ofNat a)]⟩) := by
  rw [scanAddress_eq, pingAddress]
  obtain ⟨n, hn⟩ : ∃ n, (st.maxSearchRetry + 1).toNat = n + 1 := ⟨st.maxSearchRetry.toNat, by omega⟩
  rw [hn]
  unfold pingLoop
  rw [bus_sendPing k env ho hw purge sent a ha, ok_bind]
  dsimp only
  rw [if_neg (by decide), hr]
  obtain ⟨f', cs', h1, h2⟩ := recv_garbled k env ho purge hp (sent ++ [pingWire (UInt8.ofNat a)]) cs hc hg
  rw [show ((busLink k env).ops purge).recv ⟨evs cs, sent ++ [pingWire (UInt8.ofNat a)]⟩ Frame.zero = _ from h1, ok_bind]
  dsimp only
  rw [if_pos (by decide), ok_bind]
  unfold finishScan
  dsimp only
  rw [if_neg (by decide), if_pos rfl]
  obtain ⟨r, h3⟩ := purge_drains k env ho purge (sent ++ [pingWire (UInt8.ofNat a)]) cs' h2
  rw [show ((busLink k env).ops purge).purge ⟨evs cs', sent ++ [pingWire (UInt8.ofNat a)]⟩ = _ from h3, ok_bind]

theorem scanAddress_ack (st : Settings) (hst : 0 ≤ st.maxSearchRetry) (a : Nat) (ha : a ≤ 255) (sent : List (List Byte))
    (cs : List (List Byte)) (hc : Chunks cs) (hr : env.respond (sent ++ [pingWire (UInt8.ofNat a)]) = evs cs)
    (rest : List Byte) (hh : cs.flatten = 0xE5 :: rest) :
    ∃ l, scanAddress ((busLink k env).ops purge) st ⟨[], sent⟩ a = .ok (l, ⟨[], sent ++ [pingWire (UInt8.ofNat a)]⟩) ∧
      (rest = [] → l = [.found a]) ∧ (Garbled rest → l = [.collision a]) := by
  rw [scanAddress_eq, pingAddress]
  obtain ⟨n, hn⟩ : ∃ n, (st.maxSearchRetry + 1).toNat = n + 1 := ⟨st.maxSearchRetry.toNat, by omega⟩
  rw [hn]
  unfold pingLoop
  rw [bus_sendPing k env ho hw purge sent a ha, ok_bind]
  dsimp only
  rw [if_neg (by decide), hr]
  obtain ⟨g, cs', h1, h2, h3, h4⟩ := recv_ack1 k env ho purge hp (sent ++ [pingWire (UInt8.ofNat a)]) cs hc rest hh Frame.zero
  have h2 : g.type = TYPE_ACK := h2
  rw [show ((busLink k env).ops purge).recv ⟨evs cs, sent ++ [pingWire (UInt8.ofNat a)]⟩ Frame.zero = _ from h1, ok_bind]
  dsimp only
  rw [if_pos (by decide), ok_bind]
  unfold finishScan
  dsimp only
  rw [if_neg (by decide), if_neg (by decide), if_pos h2]
  obtain ⟨p, h5⟩ := purge_drains k env ho purge (sent ++ [pingWire (UInt8.ofNat a)]) cs' h3
  rw [show ((busLink k env).ops purge).purge ⟨evs cs', sent ++ [pingWire (UInt8.ofNat a)]⟩ = _ from h5, ok_bind]
  dsimp only
  by_cases hp0 : p ≠ 0
  · rw [if_pos hp0]
    refine ⟨_, rfl, fun hnil => ?_, fun _ => rfl⟩
    exfalso
    rw [chunks_nil cs' h3 (by rw [h4]; exact hnil), show evs [] = [] from rfl, purge_silent k env ho] at h5
    cases h5
    exact hp0 rfl
  · rw [if_neg hp0]
    refine ⟨_, rfl, fun _ => rfl, fun hg => ?_⟩
    exfalso
    rw [purge_garbled k env ho purge hp _ cs' h3 (by rw [h4]; exact hg)] at h5
    cases h5
    exact hp0 (by decide)

theorem scanAddress_wire (st : Settings) (hst : 0 ≤ st.maxSearchRetry) (addrs : List Byte) (hf : FaithfulPing addrs env) (a : Nat) (ha : a ≤ 255)
    (sent : List (List Byte)) :
    scanAddress ((busLink k env).ops purge) st ⟨[], sent⟩ a = .ok (scanLine addrs a,
      ⟨[], sent ++ List.replicate (if UInt8.ofNat a ∈ addrs then 1 else (st.maxSearchRetry + 1).toNat) (pingWire (UInt8.ofNat a))⟩) := by
  have hfil := filter_byte addrs a ha
  have hmem : UInt8.ofNat a ∈ addrs ↔ addrs.filter (· = UInt8.ofNat a) ≠ [] := by
    rw [Ne, List.filter_eq_nil_iff]
    simp
  match hl : addrs.filter (· = UInt8.ofNat a) with
  | [] =>
    have hs : ∀ sent, env.respond (sent ++ [pingWire (UInt8.ofNat a)]) = [] := by
      intro sent
      obtain ⟨cs, h1, h2, h3⟩ := hf sent (UInt8.ofNat a)
      rw [hl] at h3
      rw [h2, chunks_nil cs h1 h3]; rfl
    rw [scanAddress_silence k env ho hw purge st hst a ha hs sent, if_neg (by rw [hmem, hl]; simp), scanLine, ← hfil, hl]
    rfl
  | [b] =>
    obtain ⟨cs, h1, h2, h3⟩ := hf sent (UInt8.ofNat a)
    rw [hl] at h3
    obtain ⟨l, h4, h5, _⟩ := scanAddress_ack k env ho hw purge hp st hst a ha sent cs h1 h2 [] h3
    rw [h4, h5 rfl, if_pos (by rw [hmem, hl]; simp), scanLine, ← hfil, hl]
    rfl
  | b :: c :: bs =>
    obtain ⟨cs, h1, h2, h3⟩ := hf sent (UInt8.ofNat a)
    rw [hl] at h3
    have e : scanAddress ((busLink k env).ops purge) st ⟨[], sent⟩ a = .ok ([.collision a], ⟨[], sent ++ [pingWire (UInt8.ofNat a)]⟩) := by
      rcases h3 with hg | ⟨rest, hg, hr⟩
      · exact scanAddress_garbage k env ho hw purge hp st hst a ha sent cs h1 h2 hg
      · obtain ⟨l, h4, _, h5⟩ := scanAddress_ack k env ho hw purge hp st hst a ha sent cs h1 h2 rest hr
        rw [h4, h5 hg]
    rw [e, if_pos (by rw [hmem, hl]; simp), scanLine, ← hfil, hl]
    rfl

theorem scanFrom_wire (st : Settings) (hst : 0 ≤ st.maxSearchRetry) (addrs : List Byte) (hf : FaithfulPing addrs env) (n : Nat) :
    ∀ (a : Nat) (sent : List (List Byte)), a + n ≤ 256 →
    scanFrom ((busLink k env).ops purge) st n a ⟨[], sent⟩ = .ok ((List.range' a n).flatMap (scanLine addrs),
      ⟨[], sent ++ (List.range' a n).flatMap fun a =>
        List.replicate (if UInt8.ofNat a ∈ addrs then 1 else (st.maxSearchRetry + 1).toNat) (pingWire (UInt8.ofNat a))⟩) := by
  induction n with
  | zero => intro a sent _; simp [scanFrom]
  | succ n ih =>
    intro a sent hn
    unfold scanFrom
    rw [scanAddress_wire k env ho hw purge hp st hst addrs hf a (by omega) sent, ok_bind]
    dsimp only
    rw [ih (a + 1) _ (by omega), ok_bind, List.range'_succ]
    simp only [List.flatMap_cons, List.append_assoc]

end

/-! the scan is defined -/

theorem bus_ping_defined (k : Kind) (env : Env) (purge : Int) (b : Bus) (a : Int) (p : Bool) :
    ∃ q, sendPing ((busLink k env).ops purge) b a p = .ok q := by
  unfold sendPing
  split
  · exact ⟨_, rfl⟩
  obtain ⟨⟨r, f, s'⟩, hs⟩ := bus_send_defined k env b { frameNew TYPE_SHORT with control := MASK_SND_NKE ||| MASK_DIR_M2S, address := UInt8.ofNat a.toNat } rfl
  show ∃ q, ((busLink k env).send b _ >>= _) = _
  simp only
  rw [hs, ok_bind]
  simp only
  split
  · exact ⟨_, rfl⟩
  split
  · obtain ⟨r, b', h, _⟩ := purge_sent k env purge s'
    rw [show ((busLink k env).ops purge).purge s' = _ from h]
    exact ⟨_, rfl⟩
  · exact ⟨_, rfl⟩

theorem pingLoop_defined (k : Kind) (env : Env) (purge : Int) (a : Int) (n : Nat) : ∀ (b : Bus) (f : Frame) (ret : Int),
    ∃ q, pingLoop ((busLink k env).ops purge) a n b f ret = .ok q := by
  induction n with
  | zero => intro b f ret; exact ⟨_, rfl⟩
  | succ n ih =>
    intro b f ret
    unfold pingLoop
    obtain ⟨⟨r, b1⟩, h1⟩ := bus_ping_defined k env purge b a false
    rw [h1, ok_bind]
    dsimp only
    split
    · exact ⟨_, rfl⟩
    obtain ⟨⟨rc, g, b2⟩, h2⟩ := recvFrame_defined k env purge b1 f
    rw [show ((busLink k env).ops purge).recv b1 f = _ from h2, ok_bind]
    dsimp only
    split
    · exact ⟨_, rfl⟩
    · exact ih b2 g rc

theorem scanFrom_defined (k : Kind) (env : Env) (purge : Int) (st : Settings) (n : Nat) : ∀ (a : Nat) (b : Bus),
    ∃ q, scanFrom ((busLink k env).ops purge) st n a b = .ok q := by
  induction n with
  | zero => intro a b; exact ⟨_, rfl⟩
  | succ n ih =>
    intro a b
    unfold scanFrom
    rw [scanAddress_eq, pingAddress]
    obtain ⟨⟨r, f, b1⟩, h1⟩ := pingLoop_defined k env purge a (st.maxSearchRetry + 1).toNat b Frame.zero RECV_ERROR
    have h2 : ∃ q, finishScan ((busLink k env).ops purge) a (r, f, b1) = .ok q := by
      obtain ⟨p, b', h, _⟩ := purge_sent k env purge b1
      have h : ((busLink k env).ops purge).purge b1 = .ok (p, b') := h
      unfold finishScan
      dsimp only
      simp only [h, ok_bind]
      repeat' split
      all_goals exact ⟨_, rfl⟩
    obtain ⟨⟨l, b2⟩, h2⟩ := h2
    rw [h1, ok_bind, h2, ok_bind]
    dsimp only
    obtain ⟨⟨ls, b3⟩, h3⟩ := ih (a + 1) b2
    rw [h3, ok_bind]
    exact ⟨_, rfl⟩

/-! commands -/

theorem isSecondary_iff (m : List Byte) : isSecondaryAddress m = true ↔ AddressMask m := (C52_address_validation m 0).1

section
variable {σ : Type} (o : Ops σ)

theorem reach_log (s : σ) (log : List Act) (addr : List Byte) (a : Option Int) (s' : σ × List Act)
    (h : reach o.logged (s, log) addr = .ok (a, s')) :
    (AddressMask addr ∧ ∃ l r, s'.2 = log ++ l ∧ Selection addr r l ∧ a = if r = 1 then some 0xFD else none) ∨
    (¬ AddressMask addr ∧ a = some (atoi addr) ∧ s' = (s, log)) := by
  unfold reach at h
  by_cases hm : AddressMask addr
  · left
    rw [if_pos ((isSecondary_iff addr).mpr hm), bind_eq_ok] at h
    obtain ⟨⟨r, s1⟩, h1, h2⟩ := h
    obtain ⟨l, e1, e2, _⟩ := select_log o s log addr r s1 h1
    refine ⟨hm, l, r, ?_⟩
    dsimp only at h2
    rcases selection_code e2 with rfl | rfl | rfl | rfl
    · rw [if_pos (by decide)] at h2; cases h2; exact ⟨e1, e2, rfl⟩
    · rw [if_neg (by decide)] at h2; cases h2; exact ⟨e1, e2, rfl⟩
    · rw [if_pos (by decide)] at h2; cases h2; exact ⟨e1, e2, rfl⟩
    · rw [if_pos (by decide)] at h2; cases h2; exact ⟨e1, e2, rfl⟩
  · right
    rw [if_neg (by rw [isSecondary_iff]; exact hm)] at h
    cases h
    exact ⟨hm, rfl, rfl⟩

theorem selection_no_user {mask : List Byte} {r : Int} {l : List Act} (h : Selection mask r l) : ∀ f c, Act.sent f c ∈ l → ¬ UserData f := by
  have key : ∀ f, SelectionFrame mask f → ¬ UserData f := by
    rintro f ⟨p, _, hp, _⟩ ⟨c, a, q, hq⟩
    have h1 : f.ci = 0x52 := hp.2.2.2.1
    have h2 : f.ci = 0x51 := hq.2.2.2.1
    rw [h1] at h2
    exact absurd h2 (by decide)
  intro f c hm
  cases h <;> simp at hm <;> obtain ⟨rfl, rfl⟩ := hm <;> exact key _ (by assumption)

theorem pingP_log (s : σ) (log : List Act) (a : Nat) (ha : a ≤ 255) (r : Int) (s' : σ × List Act)
    (h : sendPing o.logged (s, log) a true = .ok (r, s')) :
    ∃ l, s'.2 = log ++ l ∧ ∀ f c, Act.sent f c ∈ l → PingFrame a f := by
  unfold sendPing at h
  rw [if_neg (by rw [(isPrimary_iff (a : Int)).mpr (by omega)]; decide)] at h
  generalize hf : ({ frameNew TYPE_SHORT with control := MASK_SND_NKE ||| MASK_DIR_M2S, address := UInt8.ofNat (a : Int).toNat } : Frame) = f at h
  simp only [logged_send_eq] at h
  have hc : PingFrame a f := by subst hf; exact ⟨rfl, rfl, rfl⟩
  cases hs : o.send s f with
  | error e => rw [hs] at h; cases h
  | ok q =>
    obtain ⟨c, f', s1⟩ := q
    rw [hs] at h
    simp only [ok_bind] at h
    by_cases hc1 : c = -1
    · rw [if_pos hc1] at h
      cases h
      refine ⟨[.sent f c], rfl, ?_⟩
      intro g d hg
      simp at hg
      rw [hg.1]; exact hc
    · rw [if_neg hc1, if_pos trivial, logged_purge_eq] at h
      cases hu : o.purge s1 with
      | error e => rw [hu] at h; cases h
      | ok q =>
        rw [hu] at h
        cases h
        refine ⟨[.sent f c, .purged q.1], by simp, ?_⟩
        intro g d hg
        simp at hg
        rw [hg.1]; exact hc

theorem init_log (s : σ) (log : List Act) (r : Bool) (s' : σ × List Act) (h : initSlaves o.logged (s, log) 0xFD = .ok (r, s')) :
    ∃ l, s'.2 = log ++ l ∧ OnlyResets l := by
  unfold initSlaves at h
  rw [bind_eq_ok] at h
  obtain ⟨⟨r1, s1, log1⟩, h1, h⟩ := h
  obtain ⟨l1, e1, p1⟩ := pingP_log o s log 0xFD (by decide) r1 _ h1
  simp only at e1 h
  subst e1
  by_cases hr : r1 = -1
  · rw [if_pos hr] at h; cases h; exact ⟨l1, rfl, p1⟩
  rw [if_neg hr, bind_eq_ok] at h
  obtain ⟨⟨r2, s2, log2⟩, h2, h⟩ := h
  obtain ⟨l2, e2, p2⟩ := pingP_log o s1 _ 0xFD (by decide) r2 _ h2
  simp only at e2 h
  subst e2
  refine ⟨l1 ++ l2, ?_, ?_⟩
  · split at h <;> cases h <;> simp
  · intro f c hm
    rcases List.mem_append.mp hm with hm | hm
    · exact p1 f c hm
    · exact p2 f c hm

theorem setPrimary_log (s : σ) (log : List Act) (a : Int) (new : Nat) (hn : new ≤ 252) (r : Int) (s' : σ × List Act)
    (h : setPrimaryAddress o.logged (s, log) a new = .ok (r, s')) :
    (¬ (0 ≤ a ∧ a ≤ 255) ∧ r = -1 ∧ s' = (s, log)) ∨
    ((0 ≤ a ∧ a ≤ 255) ∧ ∃ f c, Carries f (.data 0x53 (UInt8.ofNat a.toNat) 0x51 [0x01, 0x7A, UInt8.ofNat new]) ∧ s'.2 = log ++ [.sent f c] ∧
      ((c = -1 ∧ r = -1) ∨ (c ≠ -1 ∧ r = 0))) := by
  unfold setPrimaryAddress at h
  rw [if_neg (by rw [(isPrimary_iff (new : Int)).mpr (by omega)]; decide), if_neg (by omega)] at h
  unfold sendUserData at h
  by_cases ha : isPrimaryAddress a = false
  · rw [if_pos ha] at h
    cases h
    left
    refine ⟨?_, rfl, rfl⟩
    intro hh
    rw [(isPrimary_iff a).mpr hh] at ha
    cases ha
  · right
    rw [if_neg ha, if_neg (by decide)] at h
    have ha' : 0 ≤ a ∧ a ≤ 255 := (isPrimary_iff a).mp (by cases hh : isPrimaryAddress a; exact absurd hh ha; rfl)
    refine ⟨ha', ?_⟩
    have e : ucharOfInt (new : Int) = UInt8.ofNat new := by
      unfold ucharOfInt
      rw [Int.emod_eq_of_lt (by omega) (by omega)]
      rfl
    rw [e] at h
    dsimp only at h
    rw [show ∀ d : Buf 252, copyInto d [0x01, 0x7A, UInt8.ofNat new] 3 = .ok ⟨[0x01, 0x7A, UInt8.ofNat new].take 3 ++ d.bytes.drop 3, by simp⟩ from
      fun d => by unfold copyInto; rw [if_neg (by decide), dif_pos (by simp)], ok_bind] at h
    generalize hf : ({ frameNew TYPE_LONG with
        control := MASK_SND_UD ||| MASK_DIR_M2S, address := UInt8.ofNat a.toNat, ci := 0x51, dataSize := 3,
        data := ⟨[0x01, 0x7A, UInt8.ofNat new].take 3 ++ (frameNew TYPE_LONG).data.bytes.drop 3, by simp⟩ } : Frame) = f at h
    have hc : Carries f (.data 0x53 (UInt8.ofNat a.toNat) 0x51 [0x01, 0x7A, UInt8.ofNat new]) := by
      subst hf
      exact ⟨by rw [if_neg (by simp)]; rfl, rfl, rfl, rfl, rfl, rfl⟩
    simp only [logged_send_eq] at h
    cases hs : o.send s f with
    | error e => rw [hs] at h; cases h
    | ok q =>
      obtain ⟨c, f', s1⟩ := q
      rw [hs] at h
      simp only [ok_bind] at h
      by_cases hc1 : c = -1
      · rw [if_pos hc1] at h
        cases h
        exact ⟨f, c, hc, rfl, .inl ⟨hc1, rfl⟩⟩
      · rw [if_neg hc1] at h
        cases h
        exact ⟨f, c, hc, rfl, .inr ⟨hc1, rfl⟩⟩

theorem answered_of (hh : Honest o) (s : σ) (f : Frame) (hf : f.type ≠ 1) (rc : Int) (g : Frame) (s' : σ) (hr : o.recv s f = .ok (rc, g, s'))
    (line : Line) (code : Int) (out : List Line)
    (h : (if rc = RECV_TIMEOUT then (1, []) else if g.type ≠ TYPE_ACK then (0, [.dump g]) else (0, [line]) : Int × List Line) = (code, out)) :
    Answered line rc g code out := by
  by_cases ht : rc = RECV_TIMEOUT
  · rw [if_pos ht] at h
    cases h
    subst ht
    exact .silence g
  rw [if_neg ht] at h
  by_cases ha : g.type = TYPE_ACK
  · rw [if_neg (fun h => h ha)] at h
    cases h
    have : rc = RECV_OK := Decidable.byContradiction fun hne => hh _ _ _ _ _ hf hr hne ha
    subst this
    exact .acknowledged g ha
  · rw [if_pos ha] at h
    cases h
    exact .other rc g ht (fun _ => ha)

end

/-! decimal numerals -/

theorem numeral_digits {s : List Byte} {n : Nat} (h : Numeral s n) : s ≠ [] ∧ (∀ c ∈ s, isDigit c = true) ∧
    s.foldl (fun a c => 10 * a + (c.toNat - 48)) 0 = n := by
  have hd : ∀ d, IsDec d → isDigit d = true := by
    intro d h; unfold IsDec at h; unfold isDigit; simp [h.1, h.2]
  induction h with
  | digit d h => exact ⟨by simp, by simpa using hd d h, by simp⟩
  | more s n d _ h ih =>
    obtain ⟨h1, h2, h3⟩ := ih
    refine ⟨by simp, ?_, by simp [h3]⟩
    intro c hc
    rcases List.mem_append.mp hc with hc | hc
    · exact h2 c hc
    · rw [List.mem_singleton.mp hc]; exact hd d h

theorem atoi_numeral {s : List Byte} {n : Nat} (h : Numeral s n) (hn : n < 2 ^ 31) : atoi s = n := by
  obtain ⟨h1, h2, h3⟩ := numeral_digits h
  cases s with
  | nil => exact absurd rfl h1
  | cons c t =>
    have hc : isDigit c = true := h2 c (by simp)
    have key : ∀ c : Byte, isDigit c = true → isSpace c = false ∧ c ≠ 45 ∧ c ≠ 43 := by apply forall_byte; decide +kernel
    obtain ⟨k1, k2, k3⟩ := key c hc
    have ht : ((c :: t).takeWhile isDigit) = c :: t := by
      have : ∀ l : List Byte, (∀ c ∈ l, isDigit c = true) → l.takeWhile isDigit = l := by
        intro l
        induction l with
        | nil => intro _; rfl
        | cons x l ih => intro hx; rw [List.takeWhile_cons_of_pos (hx x (by simp)), ih (fun y hy => hx y (by simp [hy]))]
      exact this _ h2
    unfold atoi
    rw [List.dropWhile_cons_of_neg (by simp [k1])]
    simp only [if_neg k2, if_neg k3, ht, h3]
    rw [if_neg (by decide), show min ((2 : Int) ^ 63 - 1) (n : Int) = n by rw [Int.min_def, if_neg (by omega)]]
    omega

theorem atoi_negative {s : List Byte} {n : Nat} (h : Numeral s n) (hn : n ≤ 2 ^ 31) : atoi (45 :: s) = -n := by
  obtain ⟨h1, h2, h3⟩ := numeral_digits h
  have ht : s.takeWhile isDigit = s := by
    have : ∀ l : List Byte, (∀ c ∈ l, isDigit c = true) → l.takeWhile isDigit = l := by
      intro l
      induction l with
      | nil => intro _; rfl
      | cons x l ih => intro hx; rw [List.takeWhile_cons_of_pos (hx x (by simp)), ih (fun y hy => hx y (by simp [hy]))]
    exact this _ h2
  unfold atoi
  rw [List.dropWhile_cons_of_neg (by decide)]
  simp only [if_pos, ht, h3]
  rw [show max (-(2 : Int) ^ 63) (-(n : Int)) = -n by rw [Int.max_def, if_pos (by omega)]]
  omega

end Mbus
