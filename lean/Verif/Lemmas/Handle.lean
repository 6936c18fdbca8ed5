import Verif.Lemmas.Session
import Verif.Lemmas.Sendrecv
namespace Mbus
open Spec

/-- `P` survives parsing -/
def ParseKeeps (P : Frame → Prop) : Prop := ∀ f buf n r f', P f → mbusParse f buf n = .ok (r, f') → P f'

theorem tcpLoop_keeps {P : Frame → Prop} (hP : ParseKeeps P) (n : Nat) : ∀ (es : List Ev) (f : Frame) (buff : List Byte) (len m : Nat)
    (out : RecvOut), evWeight es ≤ n → P f → tcpLoop es f buff len m = .ok out → P out.frame := by
  induction n with
  | zero =>
    intro es f buff len m out hw hf h
    cases es with
    | nil =>
      rw [tcpLoop] at h
      split at h
      · cases h; exact hf
      · simp only [readEv] at h
        cases h; exact hf
    | cons e es => cases e <;> simp only [evWeight] at hw <;> omega
  | succ n ih =>
    intro es f buff len m out hw hf h
    rw [tcpLoop] at h
    split at h
    · cases h; exact hf
    · split at h
      · cases h; exact hf
      · next he => exact ih _ _ _ _ _ _ (by have := readEv_weight _ _ _ _ he; omega) hf h
      · cases h; exact hf
      · cases h; exact hf
      · next bs es' he =>
        split at h
        · cases h; exact hf
        · cases hst : store buff len bs with
          | error e => rw [hst] at h; cases h
          | ok buff' =>
            rw [hst] at h
            simp only at h
            cases hp : mbusParse f buff' (len + bs.length) with
            | error e => rw [hp] at h; cases h
            | ok q =>
              obtain ⟨r, f'⟩ := q
              rw [hp] at h
              simp only at h
              have hf' := hP _ _ _ _ _ hf hp
              split at h
              · exact ih _ _ _ _ _ _ (by have := readEv_weight _ _ _ _ he; omega) hf' h
              · cases h; exact hf'

theorem serialTail_frame (f : Frame) (es : List Ev) (buff : List Byte) (len : Nat) (r : Int) :
    (serialTail f es buff len r).frame = f := by
  unfold serialTail; split <;> rfl

theorem serialLoop_keeps {P : Frame → Prop} (hP : ParseKeeps P) (n : Nat) : ∀ (es : List Ev) (f : Frame) (buff : List Byte)
    (len m to : Nat) (out : RecvOut), evWeight es + (3 - to) ≤ n → P f → serialLoop es f buff len m to = .ok out → P out.frame := by
  induction n with
  | zero =>
    intro es f buff len m to out hw hf h
    cases es with
    | nil =>
      rw [serialLoop] at h
      split at h
      · cases h; exact hf
      · simp only [readEv] at h
        rw [if_pos (by omega)] at h
        cases h; rw [serialTail_frame]; exact hf
    | cons e es => cases e <;> simp only [evWeight] at hw <;> omega
  | succ n ih =>
    intro es f buff len m to out hw hf h
    rw [serialLoop] at h
    split at h
    · cases h; exact hf
    · split at h
      · next es' he =>
        have hes : es' = es := by
          cases es with
          | nil => simp [readEv] at he; exact he
          | cons a es => cases a <;> simp [readEv] at he
        split at h
        · cases h; rw [serialTail_frame]; exact hf
        · next hto =>
          cases hp : mbusParse f buff len with
          | error e => rw [hp] at h; cases h
          | ok q =>
            obtain ⟨r, f'⟩ := q
            rw [hp] at h
            simp only at h
            have hf' := hP _ _ _ _ _ hf hp
            split at h
            · exact ih _ _ _ _ _ _ _ (by rw [hes]; omega) hf' h
            · cases h; rw [serialTail_frame]; exact hf'
      · next bs es' he =>
        have hlt := readEv_weight _ _ _ _ he
        simp only at h
        generalize hto : (if bs.length = 0 then to + 1 else to) = to' at h
        have hto' : to ≤ to' := by rw [← hto]; split <;> omega
        split at h
        · cases h; rw [serialTail_frame]; exact hf
        · cases hst : store buff len bs with
          | error e => rw [hst] at h; cases h
          | ok buff' =>
            rw [hst] at h
            simp only at h
            cases hp : mbusParse f buff' (len + bs.length) with
            | error e => rw [hp] at h; cases h
            | ok q =>
              obtain ⟨r, f'⟩ := q
              rw [hp] at h
              simp only at h
              have hf' := hP _ _ _ _ _ hf hp
              split at h
              · exact ih _ _ _ _ _ _ _ (by omega) hf' h
              · cases h; rw [serialTail_frame]; exact hf'
      · cases h; exact hf

theorem kindRecv_keeps {P : Frame → Prop} (hP : ParseKeeps P) (k : Kind) (tty : Bool) (es : List Ev) (f : Frame) (out : RecvOut)
    (hf : P f) (h : kindRecv k tty es f = .ok out) : P out.frame := by
  cases k with
  | tcp => exact tcpLoop_keeps hP _ _ _ _ _ _ _ (Nat.le_refl _) hf h
  | serial =>
    change serialRecv tty es f = .ok out at h
    unfold serialRecv at h
    cases tty with
    | true => exact serialLoop_keeps hP _ _ _ _ _ _ _ _ (Nat.le_refl _) hf h
    | false => cases h; exact hf

theorem bus_recv_keeps {P : Frame → Prop} (hP : ParseKeeps P) (k : Kind) (env : Env) (b : Bus) (f : Frame) (c : Int) (f' : Frame) (b' : Bus)
    (hf : P f) (h : (busLink k env).recv b f = .ok (c, f', b')) : P f' := by
  change (kindRecv k env.tty b.script f >>= _) = _ at h
  rw [bind_eq_ok] at h
  obtain ⟨out, h1, h2⟩ := h
  simp only [Except.ok.injEq, Prod.mk.injEq] at h2
  obtain ⟨_, rfl, _⟩ := h2
  exact kindRecv_keeps hP k env.tty _ _ _ hf h1

theorem recvFrame_keeps {σ : Type} {l : Link σ} {P : Frame → Prop}
    (hl : ∀ s f c f' s', P f → l.recv s f = .ok (c, f', s') → P f') (purge : Int) (s : σ) (f : Frame) (c : Int) (f' : Frame) (s' : σ)
    (hf : P f) (h : recvFrame l purge s f = .ok (c, f', s')) : P f' := by
  unfold recvFrame at h
  rw [bind_eq_ok] at h
  obtain ⟨⟨r, g, t⟩, h1, h2⟩ := h
  have hg := hl _ _ _ _ _ hf h1
  have once : (Except.ok (r, g, t) : C (Int × Frame × σ)) = .ok (c, f', s') → P f' := fun h => by cases h; exact hg
  simp only at h2
  split at h2
  · split at h2
    · exact hl _ _ _ _ _ hg h2
    · exact once h2
  · split at h2
    · split at h2
      · exact hl _ _ _ _ _ hg h2
      · exact once h2
    · exact once h2

theorem parseKeeps_size : ParseKeeps fun f => f.dataSize ≤ 252 := by
  intro f buf n r f' hf h
  unfold mbusParse at h
  by_cases h0 : n = 0
  · rw [if_pos h0] at h; cases h; exact hf
  rw [if_neg h0, bind_eq_ok] at h
  obtain ⟨d0, _, h⟩ := h
  by_cases h1 : d0 = ACK_START
  · rw [if_pos h1] at h; cases h; exact hf
  rw [if_neg h1] at h
  by_cases h2 : d0 = SHORT_START
  · rw [if_pos h2] at h
    by_cases h3 : n < 5
    · rw [if_pos h3] at h; cases h; exact hf
    rw [if_neg h3] at h
    by_cases h4 : n ≠ 5
    · rw [if_pos h4] at h; cases h; exact hf
    rw [if_neg h4] at h
    rw [bind_eq_ok] at h
    obtain ⟨_, _, h⟩ := h
    rw [bind_eq_ok] at h
    obtain ⟨_, _, h⟩ := h
    rw [bind_eq_ok] at h
    obtain ⟨_, _, h⟩ := h
    rw [bind_eq_ok] at h
    obtain ⟨_, _, h⟩ := h
    rw [bind_eq_ok] at h
    obtain ⟨v, _, h⟩ := h
    by_cases hv : v ≠ 0
    · rw [if_pos hv] at h; cases h; exact hf
    · rw [if_neg hv] at h; cases h; exact hf
  rw [if_neg h2] at h
  by_cases h3 : d0 = LONG_START
  · rw [if_pos h3] at h
    by_cases h4 : n < 3
    · rw [if_pos h4] at h; cases h; exact hf
    rw [if_neg h4] at h
    rw [bind_eq_ok] at h
    obtain ⟨l1, _, h⟩ := h
    rw [bind_eq_ok] at h
    obtain ⟨l2, _, h⟩ := h
    have hlt := l1.toNat_lt
    by_cases h5 : l1 < 3
    · rw [if_pos h5] at h; cases h; exact hf
    rw [if_neg h5] at h
    by_cases h6 : l1 ≠ l2
    · rw [if_pos h6] at h; cases h; exact hf
    rw [if_neg h6] at h
    by_cases h7 : n < 6 + l1.toNat
    · simp only [if_pos h7] at h; cases h; exact hf
    simp only [if_neg h7] at h
    by_cases h8 : n > 6 + l1.toNat
    · rw [if_pos h8] at h; cases h; exact hf
    rw [if_neg h8] at h
    rw [bind_eq_ok] at h
    obtain ⟨_, _, h⟩ := h
    rw [bind_eq_ok] at h
    obtain ⟨_, _, h⟩ := h
    rw [bind_eq_ok] at h
    obtain ⟨_, _, h⟩ := h
    rw [bind_eq_ok] at h
    obtain ⟨_, _, h⟩ := h
    rw [bind_eq_ok] at h
    obtain ⟨_, _, h⟩ := h
    rw [bind_eq_ok] at h
    obtain ⟨_, _, h⟩ := h
    rw [bind_eq_ok] at h
    obtain ⟨_, _, h⟩ := h
    rw [bind_eq_ok] at h
    obtain ⟨v, _, h⟩ := h
    by_cases hv : v ≠ 0
    · rw [if_pos hv] at h; cases h; show l1.toNat - 3 ≤ 252; omega
    · rw [if_neg hv] at h; cases h; show l1.toNat - 3 ≤ 252; omega
  · rw [if_neg h3] at h; cases h; exact hf

/-- both transports are sound -/
theorem handle_sound (k : Kind) (env : Env) (purge : Int) : Sound ((busLink k env).ops purge) := by
  constructor
  · intro s f r f' s' ht h
    change ((busLink k env).send s f) = _ at h
    have key : ∀ tty, sendFrame tty env.junk (env.wret s.sent) f = .ok (-1, f, none) ∨
        ∃ r w, sendFrame tty env.junk (env.wret s.sent) f = .ok (r, fixed f, w) := by
      intro tty
      unfold sendFrame
      cases tty with
      | false => exact .inl rfl
      | true =>
        right
        rw [if_neg (by decide), framePack_eq f _ PACKET_BUFF_SIZE (by simp) (by rw [ht]; simp) (.inr (.inl ht))]
        have e : packLen f = 5 := by simp [packLen, ht]
        rw [e, if_neg (by decide)]
        simp only [ok_bind]
        rw [if_neg (by decide), if_neg (by decide)]
        split <;> exact ⟨_, _, rfl⟩
    have fin : ∀ tty, (sendFrame tty env.junk (env.wret s.sent) f >>= fun q => match q.2.2 with
        | none => Except.ok (q.1, q.2.1, s)
        | some bytes => .ok (q.1, q.2.1, { script := s.script ++ env.respond (s.sent ++ [bytes]), sent := s.sent ++ [bytes] })) = .ok (r, f', s') →
        f'.type = f.type ∧ f'.address = f.address ∧ f'.control = f.control := by
      intro tty h
      rcases key tty with e | ⟨r, w, e⟩
      · rw [e] at h; cases h; exact ⟨rfl, rfl, rfl⟩
      · rw [e] at h
        cases w with
        | none => cases h; exact ⟨rfl, rfl, rfl⟩
        | some w => cases h; exact ⟨rfl, rfl, rfl⟩
    cases k with
    | tcp => exact fin true h
    | serial => exact fin env.tty h
  · intro s f c f' s' hf h
    exact recvFrame_keeps (P := fun f => f.dataSize ≤ 252) (fun s f c f' s' hf h => bus_recv_keeps parseKeeps_size k env s f c f' s' hf h)
      purge s f c f' s' hf h

/-- sending a short frame is never undefined -/
theorem bus_send_defined (k : Kind) (env : Env) (b : Bus) (f : Frame) (ht : f.type = 2) : ∃ q, (busLink k env).send b f = .ok q := by
  have key : ∀ tty, ∃ q, sendFrame tty env.junk (env.wret b.sent) f = .ok q := by
    intro tty
    unfold sendFrame
    cases tty with
    | false => exact ⟨_, rfl⟩
    | true =>
      rw [if_neg (by decide), framePack_eq f _ PACKET_BUFF_SIZE (by simp) (by rw [ht]; simp) (.inr (.inl ht))]
      have e : packLen f = 5 := by simp [packLen, ht]
      rw [e, if_neg (by decide)]
      simp only [ok_bind]
      rw [if_neg (by decide), if_neg (by decide)]
      split <;> exact ⟨_, rfl⟩
  obtain ⟨⟨r, g, w⟩, h⟩ := key (match k with | .tcp => true | .serial => env.tty)
  show ∃ q, (sendFrame (match k with | .tcp => true | .serial => env.tty) env.junk (env.wret b.sent) f >>= _) = .ok q
  rw [h, ok_bind]
  cases w with
  | none => exact ⟨_, rfl⟩
  | some w => exact ⟨_, rfl⟩

/-- receiving is never undefined -/
theorem bus_recv_defined (k : Kind) (env : Env) (b : Bus) (f : Frame) : ∃ q, (busLink k env).recv b f = .ok q := by
  obtain ⟨out, h1, _⟩ := kindRecv_weight k env.tty b.script f
  show ∃ q, (kindRecv k env.tty b.script f >>= _) = .ok q
  rw [h1]
  exact ⟨_, rfl⟩

theorem recvFrame_defined (k : Kind) (env : Env) (purge : Int) (b : Bus) (f : Frame) : ∃ q, recvFrame (busLink k env) purge b f = .ok q := by
  obtain ⟨⟨r, g, b'⟩, h1⟩ := bus_recv_defined k env b f
  obtain ⟨q, h2⟩ := bus_recv_defined k env b' g
  unfold recvFrame
  rw [h1, ok_bind]
  simp only [h2]
  repeat' split
  all_goals exact ⟨_, rfl⟩

/-- both transports are defined; with a limit of one telegram nothing more is asked of the meter -/
theorem handle_orderly (k : Kind) (env : Env) (purge mf : Int) (hmf : mf ≤ 1) :
    Orderly ((busLink k env).ops purge) (fun _ => False) mf := by
  have hs := handle_sound k env purge
  refine ⟨fun b f ht => ?_, fun b f hf => ?_, fun b => ?_⟩
  · obtain ⟨⟨r, f', b'⟩, h⟩ := bus_send_defined k env b f ht
    have h' : ((busLink k env).ops purge).send b f = .ok (r, f', b') := h
    exact ⟨r, f', b', h', by rw [(hs.send _ _ _ _ _ ht h').1, ht], id⟩
  · obtain ⟨⟨c, f', b'⟩, h⟩ := recvFrame_defined k env purge b f
    have h' : ((busLink k env).ops purge).recv b f = .ok (c, f', b') := h
    exact ⟨c, f', b', h', hs.recv _ _ _ _ _ hf h', id, fun _ => ⟨False.elim, fun h => by omega⟩⟩
  · obtain ⟨r, b', h, _⟩ := purge_sent k env purge b
    exact ⟨r, b', h, id⟩

end Mbus
