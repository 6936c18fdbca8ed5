import Verif.Lemmas.ReadsCost
import Verif.Lemmas.Chunks
/- what is still to come does not change a call that made no more reads than there are results waiting -/
namespace Mbus
open Spec

theorem readEv_more (n : Nat) (es more : List Ev) (h : 0 < es.length) :
    readEv n (es ++ more) = ((readEv n es).1, (readEv n es).2 ++ more) ∧ es.length ≤ (readEv n es).2.length + 1 := by
  cases es with
  | nil => simp at h
  | cons a es =>
    cases a with
    | data bs =>
      simp only [List.cons_append, readEv]
      by_cases hb : bs.length ≤ n
      · simp [hb]
      · simp [hb]
    | _ => simp [readEv]

/-- the same result with `more` still waiting -/
def RecvOut.more (o : RecvOut) (more : List Ev) : RecvOut := { o with rest := o.rest ++ more }

theorem tcpLoopR_more (more : List Ev) (w : Nat) : ∀ (es : List Ev) (f : Frame) (buff : List Byte) (len m n : Nat) (q : RecvOut × Nat), evWeight es ≤ w →
    len + (m + 1) ≤ 261 → tcpLoopR es f buff len m n = .ok q → q.2 ≤ n + es.length →
    tcpLoopR (es ++ more) f buff len m n = .ok (q.1.more more, q.2) ∧ n + es.length ≤ q.2 + q.1.rest.length := by
  induction w with
  | zero =>
    intro es f buff len m n q hw hl h hq
    have hb := (tcpLoopR_bound _ _ _ _ _ _ _ _ hw hl h).1
    cases es with
    | nil => simp at hq; omega
    | cons a es => cases a <;> (simp only [evWeight] at hw; omega)
  | succ w ih =>
    intro es f buff len m n q hw hl h hq
    have hb := (tcpLoopR_bound _ _ _ _ _ _ _ _ hw hl h).1
    obtain ⟨hm, hlen⟩ := readEv_more (m + 1) es more (by omega)
    rw [tcpLoopR_step, if_neg (by unfold PACKET_BUFF_SIZE; omega)] at h
    rw [tcpLoopR_step, if_neg (by unfold PACKET_BUFF_SIZE; omega), hm]
    cases hrd : readEv (m + 1) es with
    | mk e es' =>
      rw [hrd] at h hlen
      dsimp only at hlen
      cases e with
      | none =>
        obtain ⟨rfl, rfl⟩ := readEv_silent _ _ _ hrd
        simp at hq; omega
      | some e =>
        have hlt := readEv_weight _ _ _ _ hrd
        cases e with
        | data bs =>
          have hshort := readEv_short hrd
          dsimp only at h ⊢
          by_cases hz : bs.length = 0
          · rw [if_pos hz] at h ⊢
            cases h
            exact ⟨rfl, by dsimp only; omega⟩
          · rw [if_neg hz] at h ⊢
            cases hs : store buff len bs with
            | error e => rw [hs] at h; cases h
            | ok buff' =>
              rw [hs] at h
              dsimp only at h ⊢
              cases hp : mbusParse f buff' (len + bs.length) with
              | error e => rw [hp] at h; cases h
              | ok p =>
                obtain ⟨r, f'⟩ := p
                rw [hp] at h
                dsimp only at h ⊢
                by_cases hr : r > 0
                · rw [if_pos hr] at h ⊢
                  have hn := parse_need _ _ _ _ _ hp hr
                  have := ih _ _ _ _ _ _ _ (by omega) (by omega) h (by omega)
                  exact ⟨this.1, by omega⟩
                · rw [if_neg hr] at h ⊢
                  cases h
                  exact ⟨rfl, by dsimp only; omega⟩
        | eintr =>
          dsimp only at h ⊢
          have := ih _ _ _ _ _ _ _ (by omega) hl h (by omega)
          exact ⟨this.1, by omega⟩
        | _ => cases h; exact ⟨rfl, by dsimp only; omega⟩

theorem serialTail_more (f : Frame) (es more : List Ev) (buff : List Byte) (len : Nat) (r : Int) :
    serialTail f (es ++ more) buff len r = (serialTail f es buff len r).more more ∧ (serialTail f es buff len r).rest = es := by
  unfold serialTail
  split <;> exact ⟨rfl, rfl⟩

theorem serialLoopR_more (more : List Ev) (w : Nat) : ∀ (es : List Ev) (f : Frame) (buff : List Byte) (len m timeouts n : Nat) (q : RecvOut × Nat), evWeight es ≤ w →
    len + (m + 1) ≤ 261 → timeouts ≤ 2 → serialLoopR es f buff len m timeouts n = .ok q → q.2 ≤ n + es.length →
    serialLoopR (es ++ more) f buff len m timeouts n = .ok (q.1.more more, q.2) ∧ n + es.length ≤ q.2 + q.1.rest.length := by
  induction w with
  | zero =>
    intro es f buff len m timeouts n q hw hl ht h hq
    have hb := (serialLoopR_bound _ _ _ _ _ _ _ _ _ (Nat.le_refl _) hl ht h).1
    cases es with
    | nil => simp at hq; omega
    | cons a es => cases a <;> (simp only [evWeight] at hw; omega)
  | succ w ih =>
    intro es f buff len m timeouts n q hw hl ht h hq
    have hb := (serialLoopR_bound _ _ _ _ _ _ _ _ _ (Nat.le_refl _) hl ht h).1
    obtain ⟨hm, hlen⟩ := readEv_more (m + 1) es more (by omega)
    rw [serialLoopR_step, if_neg (by unfold PACKET_BUFF_SIZE; omega)] at h
    rw [serialLoopR_step, if_neg (by unfold PACKET_BUFF_SIZE; omega), hm]
    cases hrd : readEv (m + 1) es with
    | mk e es' =>
      rw [hrd] at h hlen
      dsimp only at hlen
      cases e with
      | none =>
        obtain ⟨rfl, rfl⟩ := readEv_silent _ _ _ hrd
        simp at hq; omega
      | some e =>
        have hlt := readEv_weight _ _ _ _ hrd
        cases e with
        | data bs =>
          have hshort := readEv_short hrd
          dsimp only at h ⊢
          by_cases hz : bs.length = 0 ∧ 3 ≤ (if bs.length = 0 then timeouts + 1 else timeouts)
          · rw [if_pos hz] at h ⊢
            cases h
            obtain ⟨t1, t2⟩ := serialTail_more f es' more buff len (m + 1)
            rw [t1]
            exact ⟨rfl, by dsimp only; rw [t2]; omega⟩
          · rw [if_neg hz] at h ⊢
            cases hs : store buff len bs with
            | error e => rw [hs] at h; cases h
            | ok buff' =>
              rw [hs] at h
              dsimp only at h ⊢
              cases hp : mbusParse f buff' (len + bs.length) with
              | error e => rw [hp] at h; cases h
              | ok p =>
                obtain ⟨r, f'⟩ := p
                rw [hp] at h
                dsimp only at h ⊢
                by_cases hr : r > 0
                · rw [if_pos hr] at h ⊢
                  have hn := parse_need _ _ _ _ _ hp hr
                  have ht' : (if bs.length = 0 then timeouts + 1 else timeouts) ≤ 2 := by
                    by_cases h0 : bs.length = 0
                    · rw [if_pos h0] at hz ⊢
                      by_cases h3 : 3 ≤ timeouts + 1
                      · exact absurd ⟨h0, h3⟩ hz
                      · omega
                    · rw [if_neg h0]; omega
                  generalize (if bs.length = 0 then timeouts + 1 else timeouts) = t at *
                  have := ih _ _ _ _ _ _ _ _ (by omega) (by omega) ht' h (by omega)
                  exact ⟨this.1, by omega⟩
                · rw [if_neg hr] at h ⊢
                  cases h
                  obtain ⟨t1, t2⟩ := serialTail_more f' es' more buff' (len + bs.length) r
                  rw [t1]
                  exact ⟨rfl, by dsimp only; rw [t2]; omega⟩
        | _ => cases h; exact ⟨rfl, by dsimp only; omega⟩

theorem kindRecvR_more (k : Kind) (tty : Bool) (es more : List Ev) (f : Frame) (q : RecvOut × Nat) (h : kindRecvR k tty es f = .ok q) (hq : q.2 ≤ es.length) :
    kindRecvR k tty (es ++ more) f = .ok (q.1.more more, q.2) ∧ es.length ≤ q.2 + q.1.rest.length := by
  cases k with
  | tcp =>
    have := tcpLoopR_more more _ es f _ 0 0 0 q (Nat.le_refl _) (by omega) h (by omega)
    exact ⟨this.1, by omega⟩
  | serial =>
    cases tty with
    | false => cases h; exact ⟨rfl, by dsimp only; omega⟩
    | true =>
      have := serialLoopR_more more _ es f _ 0 0 0 0 q (Nat.le_refl _) (by omega) (by omega) h (by omega)
      exact ⟨this.1, by omega⟩

/-- the same state with `more` still waiting -/
def Bus.more (b : Bus) (more : List Ev) : Bus := { b with script := b.script ++ more }

theorem recvR_more (k : Kind) (env : Env) (more : List Ev) (b : Bus) (n : Nat) (f : Frame) (r : Int) (f' : Frame) (b' : Bus) (n' : Nat)
    (h : (readsLink k env).recv (b, n) f = .ok (r, f', b', n')) (hq : n' ≤ n + b.script.length) :
    (readsLink k env).recv (b.more more, n) f = .ok (r, f', b'.more more, n') ∧ n + b.script.length ≤ n' + b'.script.length ∧ n ≤ n' := by
  obtain ⟨⟨out, m⟩, h1, h⟩ := bind_eq_ok.mp h
  cases h
  have := kindRecvR_more k env.tty b.script more f _ h1 (by dsimp only; omega)
  refine ⟨?_, by dsimp only at *; omega, by omega⟩
  show (kindRecvR k env.tty (b.script ++ more) f >>= _) = _
  rw [this.1]; rfl

theorem recvFrameR_le (k : Kind) (env : Env) (purge : Int) (s : Bus × Nat) (f : Frame) (r : Int) (f' : Frame) (s' : Bus × Nat)
    (h : recvFrame (readsLink k env) purge s f = .ok (r, f', s')) : s.2 ≤ s'.2 := by
  have one : ∀ (s : Bus × Nat) (f : Frame) (r : Int) (f' : Frame) (s' : Bus × Nat), (readsLink k env).recv s f = .ok (r, f', s') → s.2 ≤ s'.2 := by
    intro s f r f' s' h
    obtain ⟨⟨out, m⟩, h1, h⟩ := bind_eq_ok.mp h
    cases h; dsimp only; omega
  unfold recvFrame at h
  obtain ⟨⟨r1, f1, s1⟩, h1, h⟩ := bind_eq_ok.mp h
  have a := one _ _ _ _ _ h1
  have again : (readsLink k env).recv s1 f1 = .ok (r, f', s') → s.2 ≤ s'.2 := fun h => by have := one _ _ _ _ _ h; omega
  have once : (Except.ok (r1, f1, s1) : C (Int × Frame × (Bus × Nat))) = .ok (r, f', s') → s.2 ≤ s'.2 := fun h => by cases h; exact a
  dsimp only at h
  split at h
  · split at h
    · exact again h
    · exact once h
  split at h
  · split at h
    · exact again h
    · exact once h
  · exact once h

theorem recvFrameR_more (k : Kind) (env : Env) (more : List Ev) (purge : Int) (b : Bus) (n : Nat) (f : Frame) (r : Int) (f' : Frame) (b' : Bus) (n' : Nat)
    (h : recvFrame (readsLink k env) purge (b, n) f = .ok (r, f', b', n')) (hq : n' ≤ n + b.script.length) :
    recvFrame (readsLink k env) purge (b.more more, n) f = .ok (r, f', b'.more more, n') ∧ n + b.script.length ≤ n' + b'.script.length := by
  unfold recvFrame at h ⊢
  obtain ⟨⟨r1, f1, b1, n1⟩, h1, h⟩ := bind_eq_ok.mp h
  have hn1 : n1 ≤ n' := by
    have one : ∀ (s : Bus × Nat) (f : Frame) (r : Int) (f' : Frame) (s' : Bus × Nat), (readsLink k env).recv s f = .ok (r, f', s') → s.2 ≤ s'.2 := by
      intro s f r f' s' h
      obtain ⟨⟨out, m⟩, h1, h⟩ := bind_eq_ok.mp h
      cases h; dsimp only; omega
    dsimp only at h
    split at h
    · split at h
      · exact one _ _ _ _ _ h
      · cases h; exact Nat.le_refl _
    split at h
    · split at h
      · exact one _ _ _ _ _ h
      · cases h; exact Nat.le_refl _
    · cases h; exact Nat.le_refl _
  obtain ⟨a1, a2, a3⟩ := recvR_more k env more _ _ _ _ _ _ _ h1 (by omega)
  rw [a1]
  have again : (readsLink k env).recv (b1, n1) f1 = .ok (r, f', b', n') → (readsLink k env).recv (b1.more more, n1) f1 = .ok (r, f', b'.more more, n') ∧
      n + b.script.length ≤ n' + b'.script.length := by
    intro h
    obtain ⟨c1, c2, c3⟩ := recvR_more k env more _ _ _ _ _ _ _ h (by omega)
    exact ⟨c1, by omega⟩
  have once : (Except.ok (r1, f1, b1, n1) : C (Int × Frame × (Bus × Nat))) = .ok (r, f', b', n') → (Except.ok (r1, f1, b1.more more, n1) : C (Int × Frame × (Bus × Nat))) = .ok (r, f', b'.more more, n') ∧
      n + b.script.length ≤ n' + b'.script.length := by
    intro h; cases h; exact ⟨rfl, by omega⟩
  simp only [ok_bind] at h ⊢
  by_cases d1 : frameDirection f1 = MASK_DIR_M2S
  · rw [if_pos d1] at h ⊢
    by_cases p1 : purge = PURGE_M2S
    · rw [if_pos p1] at h ⊢; exact again h
    · rw [if_neg p1] at h ⊢; exact once h
  rw [if_neg d1] at h ⊢
  by_cases d2 : frameDirection f1 = MASK_DIR_S2M
  · rw [if_pos d2] at h ⊢
    by_cases p2 : purge = PURGE_S2M
    · rw [if_pos p2] at h ⊢; exact again h
    · rw [if_neg p2] at h ⊢; exact once h
  rw [if_neg d2] at h ⊢
  exact once h

theorem purgeLoopR_le (k : Kind) (env : Env) (purge : Int) (w : Nat) : ∀ (s : Bus × Nat) (f : Frame) (got r : Int) (s' : Bus × Nat), evWeight s.1.script ≤ w →
    purgeLoop (readsLink k env) purge s f got = .ok (r, s') → s.2 ≤ s'.2 := by
  induction w using Nat.strongRecOn with
  | _ w ih =>
    intro s f got r s' hw h
    rw [purgeLoop] at h
    split at h
    · cases h
    · rename_i e f1 s1 h1
      have hd := recvFrameR_le k env purge _ _ _ _ _ h1
      by_cases hc : e ≠ RECV_OK ∧ e ≠ RECV_INVALID
      · rw [dif_pos hc] at h; cases h; exact hd
      · rw [dif_neg hc] at h
        have hok : e = RECV_OK ∨ e = RECV_INVALID := by
          by_cases h0 : e = RECV_OK
          · exact .inl h0
          · exact .inr (Decidable.byContradiction fun h1 => hc ⟨h0, h1⟩)
        have hlt : evWeight s1.1.script < evWeight s.1.script := recvFrame_lt _ _ _ _ _ _ _ h1 hok
        have := ih _ (by omega) s1 f1 1 r s' (Nat.le_refl _) h
        omega

theorem purgeLoopR_more (k : Kind) (env : Env) (more : List Ev) (purge : Int) (w : Nat) : ∀ (b : Bus) (n : Nat) (f : Frame) (got r : Int) (b' : Bus) (n' : Nat), evWeight b.script ≤ w →
    purgeLoop (readsLink k env) purge (b, n) f got = .ok (r, b', n') → n' ≤ n + b.script.length →
    purgeLoop (readsLink k env) purge (b.more more, n) f got = .ok (r, b'.more more, n') := by
  induction w using Nat.strongRecOn with
  | _ w ih =>
    intro b n f got r b' n' hw h hq
    rw [purgeLoop] at h
    split at h
    · cases h
    · rename_i e f1 s1 h1
      obtain ⟨b1, n1⟩ := s1
      by_cases hc : e ≠ RECV_OK ∧ e ≠ RECV_INVALID
      · rw [dif_pos hc] at h; cases h
        have := (recvFrameR_more k env more purge _ _ _ _ _ _ _ h1 hq).1
        rw [purgeLoop]
        split
        · next h => rw [this] at h; cases h
        · next h => rw [this] at h; cases h; rw [dif_pos hc]
      · rw [dif_neg hc] at h
        have hok : e = RECV_OK ∨ e = RECV_INVALID := by
          by_cases h0 : e = RECV_OK
          · exact .inl h0
          · exact .inr (Decidable.byContradiction fun h1 => hc ⟨h0, h1⟩)
        have hlt : evWeight b1.script < evWeight b.script := recvFrame_lt _ _ _ _ _ _ _ h1 hok
        have hle := purgeLoopR_le k env purge _ _ _ _ _ _ (Nat.le_refl _) h
        dsimp only at hle
        obtain ⟨a1, a2⟩ := recvFrameR_more k env more purge _ _ _ _ _ _ _ h1 (by omega)
        have := ih _ (by omega) b1 n1 f1 1 r b' n' (Nat.le_refl _) h (by omega)
        rw [purgeLoop]
        split
        · next h => rw [a1] at h; cases h
        · next h => rw [a1] at h; cases h; rw [dif_neg hc]; exact this

end Mbus
