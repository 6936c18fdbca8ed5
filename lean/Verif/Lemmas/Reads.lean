import Verif.Model.Reads
import Verif.Spec.Reads
import Verif.Lemmas.MessagesIo
/- counting reads: nothing else changes; bounds for one receive -/
namespace Mbus
open Spec

theorem parse_need (f : Frame) (data : List Byte) (size : Nat) (r : Int) (f' : Frame) (h : mbusParse f data size = .ok (r, f')) (hr : r > 0) :
    (size : Int) + r ≤ 261 := by
  unfold mbusParse at h
  by_cases h0 : size = 0
  · rw [if_pos h0] at h; cases h; omega
  rw [if_neg h0] at h
  obtain ⟨d0, _, h⟩ := bind_eq_ok.mp h
  by_cases h1 : d0 = ACK_START
  · rw [if_pos h1] at h; cases h; omega
  rw [if_neg h1] at h
  by_cases h2 : d0 = SHORT_START
  · rw [if_pos h2] at h
    by_cases h3 : size < 5
    · rw [if_pos h3] at h; cases h; omega
    rw [if_neg h3] at h
    by_cases h4 : size ≠ 5
    · rw [if_pos h4] at h; cases h; omega
    rw [if_neg h4] at h
    obtain ⟨_, _, h⟩ := bind_eq_ok.mp h
    obtain ⟨_, _, h⟩ := bind_eq_ok.mp h
    obtain ⟨_, _, h⟩ := bind_eq_ok.mp h
    obtain ⟨_, _, h⟩ := bind_eq_ok.mp h
    obtain ⟨v, _, h⟩ := bind_eq_ok.mp h
    by_cases h5 : v ≠ 0
    · rw [if_pos h5] at h; cases h; omega
    · rw [if_neg h5] at h; cases h; omega
  rw [if_neg h2] at h
  by_cases h6 : d0 = LONG_START
  · rw [if_pos h6] at h
    by_cases h3 : size < 3
    · rw [if_pos h3] at h; cases h; omega
    rw [if_neg h3] at h
    obtain ⟨l1, _, h⟩ := bind_eq_ok.mp h
    obtain ⟨l2, _, h⟩ := bind_eq_ok.mp h
    have hl := l1.toNat_lt
    by_cases h7 : l1 < 3
    · erw [if_pos h7] at h; cases h; omega
    erw [if_neg h7] at h
    by_cases h8 : l1 ≠ l2
    · erw [if_pos h8] at h; cases h; omega
    erw [if_neg h8] at h
    by_cases h9 : size < 6 + l1.toNat
    · erw [if_pos h9] at h; cases h; dsimp only at *; omega
    erw [if_neg h9] at h
    by_cases h10 : size > 6 + l1.toNat
    · erw [if_pos h10] at h; cases h; omega
    erw [if_neg h10] at h
    obtain ⟨_, _, h⟩ := bind_eq_ok.mp h
    obtain ⟨_, _, h⟩ := bind_eq_ok.mp h
    obtain ⟨_, _, h⟩ := bind_eq_ok.mp h
    obtain ⟨_, _, h⟩ := bind_eq_ok.mp h
    obtain ⟨_, _, h⟩ := bind_eq_ok.mp h
    obtain ⟨_, _, h⟩ := bind_eq_ok.mp h
    obtain ⟨_, _, h⟩ := bind_eq_ok.mp h
    obtain ⟨v, _, h⟩ := bind_eq_ok.mp h
    by_cases h5 : v ≠ 0
    · rw [if_pos h5] at h; cases h; omega
    · rw [if_neg h5] at h; cases h; omega
  · rw [if_neg h6] at h; cases h; omega

theorem readEv_silent (n : Nat) (es es' : List Ev) (h : readEv n es = (none, es')) : es = [] ∧ es' = [] := by
  cases es with
  | nil => simp [readEv] at h; exact ⟨rfl, h⟩
  | cons a es => cases a <;> simp [readEv] at h

theorem serialLoopR_step (es : List Ev) (f : Frame) (buff : List Byte) (len m timeouts n : Nat) :
    serialLoopR es f buff len m timeouts n =
      if len + (m + 1) > PACKET_BUFF_SIZE then .ok (⟨RECV_ERROR, f, es, none⟩, n)
      else match readEv (m + 1) es with
        | (none, es') =>
          if 3 ≤ timeouts + 1 then .ok (serialTail f es' buff len (m + 1), n + 1)
          else match mbusParse f buff len with
            | .error e => .error e
            | .ok (remaining, f) =>
              if remaining > 0 then serialLoopR es' f buff len (remaining.toNat - 1) (timeouts + 1) (n + 1)
              else .ok (serialTail f es' buff len remaining, n + 1)
        | (some (.data bs), es') =>
          if bs.length = 0 ∧ 3 ≤ (if bs.length = 0 then timeouts + 1 else timeouts) then .ok (serialTail f es' buff len (m + 1), n + 1)
          else match store buff len bs with
            | .error e => .error e
            | .ok buff =>
              match mbusParse f buff (len + bs.length) with
              | .error e => .error e
              | .ok (remaining, f) =>
                if remaining > 0 then
                  serialLoopR es' f buff (len + bs.length) (remaining.toNat - 1) (if bs.length = 0 then timeouts + 1 else timeouts) (n + 1)
                else .ok (serialTail f es' buff (len + bs.length) remaining, n + 1)
        | (some _, es') => .ok (⟨RECV_ERROR, f, es', none⟩, n + 1) := by
  rw [serialLoopR]
  split
  · rfl
  · split
    · rename_i h; rw [h]
      rfl
    · rename_i h; rw [h]
      rfl
    · rename_i v _ hx h; rw [h]
      cases v with
      | data bs => exact (hx bs rfl).elim
      | _ => rfl

theorem tcpLoopR_step (es : List Ev) (f : Frame) (buff : List Byte) (len m n : Nat) :
    tcpLoopR es f buff len m n =
      if len + (m + 1) > PACKET_BUFF_SIZE then .ok (⟨RECV_ERROR, f, es, none⟩, n)
      else match readEv (m + 1) es with
        | (none, es') => .ok (⟨RECV_TIMEOUT, f, es', none⟩, n + 1)
        | (some .eintr, es') => tcpLoopR es' f buff len m (n + 1)
        | (some .eagain, es') => .ok (⟨RECV_TIMEOUT, f, es', none⟩, n + 1)
        | (some .err, es') => .ok (⟨RECV_ERROR, f, es', none⟩, n + 1)
        | (some (.data bs), es') =>
          if bs.length = 0 then .ok (⟨RECV_RESET, f, es', none⟩, n + 1)
          else match store buff len bs with
            | .error e => .error e
            | .ok buff =>
              match mbusParse f buff (len + bs.length) with
              | .error e => .error e
              | .ok (remaining, f) =>
                if remaining > 0 then tcpLoopR es' f buff (len + bs.length) (remaining.toNat - 1) (n + 1)
                else .ok (⟨if remaining < 0 then RECV_INVALID else RECV_OK, f, es', some (buff.take (len + bs.length))⟩, n + 1) := by
  rw [tcpLoopR]
  split
  · rfl
  · split <;> (rename_i h; rw [h])
    rfl

theorem tcpLoop_step (es : List Ev) (f : Frame) (buff : List Byte) (len m : Nat) :
    tcpLoop es f buff len m =
      if len + (m + 1) > PACKET_BUFF_SIZE then .ok ⟨RECV_ERROR, f, es, none⟩
      else match readEv (m + 1) es with
        | (none, es') => .ok ⟨RECV_TIMEOUT, f, es', none⟩
        | (some .eintr, es') => tcpLoop es' f buff len m
        | (some .eagain, es') => .ok ⟨RECV_TIMEOUT, f, es', none⟩
        | (some .err, es') => .ok ⟨RECV_ERROR, f, es', none⟩
        | (some (.data bs), es') =>
          if bs.length = 0 then .ok ⟨RECV_RESET, f, es', none⟩
          else match store buff len bs with
            | .error e => .error e
            | .ok buff =>
              match mbusParse f buff (len + bs.length) with
              | .error e => .error e
              | .ok (remaining, f) =>
                if remaining > 0 then tcpLoop es' f buff (len + bs.length) (remaining.toNat - 1)
                else .ok ⟨if remaining < 0 then RECV_INVALID else RECV_OK, f, es', some (buff.take (len + bs.length))⟩ := by
  rw [tcpLoop]
  split
  · rfl
  · split <;> (rename_i h; rw [h])
    rfl

theorem serialLoopR_eq (w : Nat) : ∀ (es : List Ev) (f : Frame) (buff : List Byte) (len m timeouts n : Nat), evWeight es + (3 - timeouts) ≤ w →
    (serialLoopR es f buff len m timeouts n).map Prod.fst = serialLoop es f buff len m timeouts := by
  induction w with
  | zero =>
    intro es f buff len m timeouts n hw
    rw [serialLoopR_step, serialLoop_step]
    cases es with
    | nil => simp only [readEv]; rw [if_pos (by omega : 3 ≤ timeouts + 1), if_pos (by omega : 3 ≤ timeouts + 1)]; split <;> rfl
    | cons a es => cases a <;> (simp only [evWeight] at hw; omega)
  | succ w ih =>
    intro es f buff len m timeouts n hw
    rw [serialLoopR_step, serialLoop_step]
    split
    · rfl
    cases hrd : readEv (m + 1) es with
    | mk e es' =>
      cases e with
      | none =>
        obtain ⟨rfl, rfl⟩ := readEv_silent _ _ _ hrd
        dsimp only
        split
        · rfl
        · cases mbusParse f buff len with
          | error e => rfl
          | ok q =>
            obtain ⟨r, f⟩ := q
            dsimp only
            split
            · exact ih _ _ _ _ _ _ _ (by omega)
            · rfl
      | some e =>
        have hlt := readEv_weight _ _ _ _ hrd
        cases e with
        | data bs =>
          dsimp only
          have ht : timeouts ≤ (if bs.length = 0 then timeouts + 1 else timeouts) := by split <;> omega
          generalize (if bs.length = 0 then timeouts + 1 else timeouts) = t' at ht ⊢
          split
          · rfl
          · cases store buff len bs with
            | error e => rfl
            | ok buff =>
              dsimp only
              cases mbusParse f buff (len + bs.length) with
              | error e => rfl
              | ok q =>
                obtain ⟨r, f⟩ := q
                dsimp only
                split
                · exact ih _ _ _ _ _ _ _ (by omega)
                · rfl
        | _ => rfl

theorem tcpLoopR_eq (w : Nat) : ∀ (es : List Ev) (f : Frame) (buff : List Byte) (len m n : Nat), evWeight es ≤ w →
    (tcpLoopR es f buff len m n).map Prod.fst = tcpLoop es f buff len m := by
  induction w with
  | zero =>
    intro es f buff len m n hw
    rw [tcpLoopR_step, tcpLoop_step]
    cases es with
    | nil => simp only [readEv]; split <;> rfl
    | cons a es => cases a <;> (simp only [evWeight] at hw; omega)
  | succ w ih =>
    intro es f buff len m n hw
    rw [tcpLoopR_step, tcpLoop_step]
    split
    · rfl
    cases hrd : readEv (m + 1) es with
    | mk e es' =>
      cases e with
      | none => rfl
      | some e =>
        have hlt := readEv_weight _ _ _ _ hrd
        cases e with
        | data bs =>
          dsimp only
          split
          · rfl
          · cases store buff len bs with
            | error e => rfl
            | ok buff =>
              dsimp only
              cases mbusParse f buff (len + bs.length) with
              | error e => rfl
              | ok q =>
                obtain ⟨r, f⟩ := q
                dsimp only
                split
                · exact ih _ _ _ _ _ _ (by omega)
                · rfl
        | eintr => exact ih _ _ _ _ _ _ (by omega)
        | _ => rfl

theorem kindRecvR_eq (k : Kind) (tty : Bool) (es : List Ev) (f : Frame) : (kindRecvR k tty es f).map Prod.fst = kindRecv k tty es f := by
  cases k with
  | tcp => exact tcpLoopR_eq _ es f _ 0 0 0 (Nat.le_refl _)
  | serial =>
    cases tty with
    | false => rfl
    | true => exact serialLoopR_eq _ es f _ 0 0 0 0 (Nat.le_refl _)

theorem kindRecvR_recv {k : Kind} {tty : Bool} {es : List Ev} {f : Frame} {q : RecvOut × Nat} (h : kindRecvR k tty es f = .ok q) :
    kindRecv k tty es f = .ok q.1 := by rw [← kindRecvR_eq, h]; rfl

/-- the reads of one receive on a serial line -/
theorem serialLoopR_bound (w : Nat) : ∀ (es : List Ev) (f : Frame) (buff : List Byte) (len m timeouts n : Nat) (q : RecvOut × Nat), evWeight es + (3 - timeouts) ≤ w →
    len + (m + 1) ≤ 261 → timeouts ≤ 2 → serialLoopR es f buff len m timeouts n = .ok q →
    n < q.2 ∧ q.2 ≤ n + (261 - len) + (2 - timeouts) ∧ q.2 + evWeight q.1.rest ≤ n + evWeight es + (3 - timeouts) := by
  have tail : ∀ f es buff len r, (serialTail f es buff len r).rest = es := by
    intro f es buff len r
    unfold serialTail
    split <;> rfl
  induction w with
  | zero => intro es f buff len m timeouts n q hw hl ht; omega
  | succ w ih =>
    intro es f buff len m timeouts n q hw hl ht h
    rw [serialLoopR_step, if_neg (by unfold PACKET_BUFF_SIZE; omega)] at h
    cases hrd : readEv (m + 1) es with
    | mk e es' =>
      rw [hrd] at h
      cases e with
      | none =>
        obtain ⟨rfl, rfl⟩ := readEv_silent _ _ _ hrd
        dsimp only at h
        split at h
        · cases h; dsimp only; rw [tail]; omega
        · cases hp : mbusParse f buff len with
          | error e => rw [hp] at h; cases h
          | ok p =>
            obtain ⟨r, f'⟩ := p
            rw [hp] at h
            dsimp only at h
            split at h
            · have := parse_need _ _ _ _ _ hp (by assumption)
              have := ih _ _ _ _ _ _ _ _ (by omega) (by omega) (by omega) h
              omega
            · cases h; dsimp only; rw [tail]; omega
      | some e =>
        have hlt := readEv_weight _ _ _ _ hrd
        cases e with
        | data bs =>
          have hshort := readEv_short hrd
          dsimp only at h
          by_cases hz : bs.length = 0 ∧ 3 ≤ (if bs.length = 0 then timeouts + 1 else timeouts)
          · rw [if_pos hz] at h
            cases h; dsimp only; rw [tail]; omega
          · rw [if_neg hz] at h
            cases hs : store buff len bs with
            | error e => rw [hs] at h; cases h
            | ok buff' =>
              rw [hs] at h
              dsimp only at h
              cases hp : mbusParse f buff' (len + bs.length) with
              | error e => rw [hp] at h; cases h
              | ok p =>
                obtain ⟨r, f'⟩ := p
                rw [hp] at h
                dsimp only at h
                split at h
                · have hn := parse_need _ _ _ _ _ hp (by assumption)
                  by_cases h0 : bs.length = 0
                  · rw [if_pos h0] at h
                    simp only [h0, true_and, if_true, Nat.not_le] at hz
                    have := ih _ _ _ _ _ _ _ _ (by omega) (by omega) (by omega) h
                    omega
                  · rw [if_neg h0] at h
                    have := ih _ _ _ _ _ _ _ _ (by omega) (by omega) (by omega) h
                    omega
                · cases h; dsimp only; rw [tail]; omega
        | _ => cases h; dsimp only; omega

theorem readEv_eintrs (n : Nat) (es es' : List Ev) (e : Ev) (h : readEv n es = (some e, es')) : eintrs es = eintrs es' + (if e = .eintr then 1 else 0) := by
  cases es with
  | nil => simp [readEv] at h
  | cons a es =>
    cases a with
    | data bs =>
      simp only [readEv, Prod.mk.injEq, Option.some.injEq] at h
      obtain ⟨rfl, rfl⟩ := h
      have he : ∀ (bs : List Byte) es, eintrs (.data bs :: es) = eintrs es := fun _ _ => rfl
      simp only [reduceCtorEq, if_false, Nat.add_zero, he]
      by_cases hn : bs.length ≤ n
      · rw [if_pos hn]
      · rw [if_neg hn, he]
    | _ => simp only [readEv, Prod.mk.injEq, Option.some.injEq] at h; obtain ⟨rfl, rfl⟩ := h; simp [eintrs]

/-- the reads of one receive on a socket -/
theorem tcpLoopR_bound (w : Nat) : ∀ (es : List Ev) (f : Frame) (buff : List Byte) (len m n : Nat) (q : RecvOut × Nat), evWeight es ≤ w →
    len + (m + 1) ≤ 261 → tcpLoopR es f buff len m n = .ok q →
    n < q.2 ∧ q.2 + eintrs q.1.rest ≤ n + (261 - len) + eintrs es ∧ q.2 + evWeight q.1.rest ≤ n + evWeight es + 1 := by
  induction w with
  | zero =>
    intro es f buff len m n q hw hl h
    rw [tcpLoopR_step, if_neg (by unfold PACKET_BUFF_SIZE; omega)] at h
    cases es with
    | nil => simp only [readEv] at h; cases h; dsimp only; omega
    | cons a es => cases a <;> (simp only [evWeight] at hw; omega)
  | succ w ih =>
    intro es f buff len m n q hw hl h
    rw [tcpLoopR_step, if_neg (by unfold PACKET_BUFF_SIZE; omega)] at h
    cases hrd : readEv (m + 1) es with
    | mk e es' =>
      rw [hrd] at h
      cases e with
      | none =>
        obtain ⟨rfl, rfl⟩ := readEv_silent _ _ _ hrd
        cases h; dsimp only; omega
      | some e =>
        have hlt := readEv_weight _ _ _ _ hrd
        have hei := readEv_eintrs _ _ _ _ hrd
        cases e with
        | data bs =>
          have hshort := readEv_short hrd
          rw [if_neg (by simp)] at hei
          dsimp only at h
          split at h
          · cases h; dsimp only; omega
          · cases hs : store buff len bs with
            | error e => rw [hs] at h; cases h
            | ok buff' =>
              rw [hs] at h
              dsimp only at h
              cases hp : mbusParse f buff' (len + bs.length) with
              | error e => rw [hp] at h; cases h
              | ok p =>
                obtain ⟨r, f'⟩ := p
                rw [hp] at h
                dsimp only at h
                split at h
                · have hn := parse_need _ _ _ _ _ hp (by assumption)
                  have := ih _ _ _ _ _ _ _ (by omega) (by omega) h
                  omega
                · cases h; dsimp only; omega
        | eintr =>
          rw [if_pos rfl] at hei
          have := ih _ _ _ _ _ _ _ (by omega) hl h
          omega
        | _ => rw [if_neg (by simp)] at hei; cases h; dsimp only; omega

theorem kindRecvR_defined (k : Kind) (tty : Bool) (es : List Ev) (f : Frame) : ∃ q, kindRecvR k tty es f = .ok q := by
  obtain ⟨out, h, _⟩ := kindRecv_weight k tty es f
  rw [← kindRecvR_eq] at h
  cases hq : kindRecvR k tty es f with
  | error e => rw [hq] at h; cases h
  | ok q => exact ⟨q, rfl⟩

/-- one receive: at most 263 reads (261 on a socket) and the interrupted ones, and not many more than arrives -/
theorem kindRecvR_bound (k : Kind) (tty : Bool) (es : List Ev) (f : Frame) (q : RecvOut × Nat) (h : kindRecvR k tty es f = .ok q) :
    q.2 ≤ (match k with | .tcp => 261 + eintrs es | .serial => 263) ∧ q.2 + evWeight q.1.rest ≤ evWeight es + (match k with | .tcp => 1 | .serial => 3) := by
  cases k with
  | tcp =>
    have := tcpLoopR_bound _ _ _ _ _ _ _ _ (Nat.le_refl _) (by omega) h
    dsimp only
    omega
  | serial =>
    cases tty with
    | false => cases h; dsimp only; omega
    | true =>
      have := serialLoopR_bound _ _ _ _ _ _ _ _ _ (Nat.le_refl _) (by omega) (by omega) h
      dsimp only
      omega

end Mbus
