import Verif.Lemmas.Handle
import Verif.Props.Transport
/- receiving on a clean bus -/
namespace Mbus
open Spec

theorem kind_recv_clean (k : Kind) (tty : Bool) (ho : k = .tcp ∨ tty = true) (t : Telegram) (hl : t.Legal) (f : Frame) :
    ∃ f' ev, kindRecv k tty [.data t.wire] f = .ok ⟨RECV_OK, f', [], ev⟩ ∧ Carries f' t := by
  have hw : t.wire ≠ [] := by cases t <;> simp [Telegram.wire]
  have hfeed : ∀ skip, Feeds skip 0 [.data t.wire] t.wire [] := by
    intro skip
    have := Feeds.whole (skip := skip) t.wire hw (Feeds.done [])
    rwa [List.append_nil] at this
  cases k with
  | tcp =>
    obtain ⟨f', h1, h2⟩ := C40_tcp_recv_delivers _ _ _ t f hl (hfeed .eintr)
    exact ⟨f', _, h1, h2⟩
  | serial =>
    rcases ho with h | h
    · cases h
    · subst h
      obtain ⟨f', h1, h2⟩ := C41_serial_recv_delivers _ _ _ t f hl (hfeed _) (by omega) (by simp [hw])
      exact ⟨f', _, h1, h2⟩

theorem kind_recv_silent (k : Kind) (tty : Bool) (ho : k = .tcp ∨ tty = true) (f : Frame) :
    kindRecv k tty [] f = .ok ⟨RECV_TIMEOUT, f, [], none⟩ := by
  cases k with
  | tcp =>
    show tcpRecv [] f = _
    unfold tcpRecv
    rw [tcpLoop, if_neg (by decide)]
    rfl
  | serial =>
    rcases ho with h | h
    · cases h
    · subst h
      show serialLoop [] f _ 0 0 0 = _
      rw [serialLoop, if_neg (by decide)]
      rfl

theorem bus_recv_clean (k : Kind) (env : Env) (ho : IsOpen k env) (sent : List (List Byte)) (t : Telegram) (hl : t.Legal) (f : Frame) :
    ∃ f', (busLink k env).recv ⟨[.data t.wire], sent⟩ f = .ok (RECV_OK, f', ⟨[], sent⟩) ∧ Carries f' t := by
  obtain ⟨f', ev, h1, h2⟩ := kind_recv_clean k env.tty ho t hl f
  refine ⟨f', ?_, h2⟩
  show (kindRecv k env.tty [.data t.wire] f >>= _) = _
  rw [h1]; rfl

theorem bus_recv_silent (k : Kind) (env : Env) (ho : IsOpen k env) (sent : List (List Byte)) (f : Frame) :
    (busLink k env).recv ⟨[], sent⟩ f = .ok (RECV_TIMEOUT, f, ⟨[], sent⟩) := by
  show (kindRecv k env.tty [] f >>= _) = _
  rw [kind_recv_silent k env.tty ho f]; rfl

theorem recv_silent (k : Kind) (env : Env) (ho : IsOpen k env) (purge : Int) (sent : List (List Byte)) (f : Frame) :
    recvFrame (busLink k env) purge ⟨[], sent⟩ f = .ok (RECV_TIMEOUT, f, ⟨[], sent⟩) := by
  unfold recvFrame
  simp only [bus_recv_silent k env ho, ok_bind]
  repeat' split
  all_goals rfl

theorem purge_silent (k : Kind) (env : Env) (ho : IsOpen k env) (purge : Int) (sent : List (List Byte)) :
    purgeFrames (busLink k env) purge ⟨[], sent⟩ = .ok (0, ⟨[], sent⟩) := by
  unfold purgeFrames
  rw [purgeLoop]
  split
  · next h => rw [recv_silent k env ho] at h; cases h
  · next h =>
    rw [recv_silent k env ho] at h
    cases h
    rw [dif_pos (by decide)]

theorem direction_slave (f : Frame) (t : Telegram) (hc : Carries f t) (hs : FromSlave t) : frameDirection f = MASK_DIR_S2M := by
  unfold frameDirection
  cases t with
  | ack =>
    have hc : f.type = TYPE_ACK := hc
    rw [if_pos hc]
  | short c a => exact hs.elim
  | data c a ci p =>
    split
    · rfl
    · rw [hc.2.1]; exact hs

theorem recv_clean (k : Kind) (env : Env) (ho : IsOpen k env) (purge : Int) (hp : purge ≠ PURGE_S2M) (sent : List (List Byte))
    (t : Telegram) (hl : t.Legal) (hs : FromSlave t) (f : Frame) :
    ∃ f', recvFrame (busLink k env) purge ⟨[.data t.wire], sent⟩ f = .ok (RECV_OK, f', ⟨[], sent⟩) ∧ Carries f' t := by
  obtain ⟨f', h1, h2⟩ := bus_recv_clean k env ho sent t hl f
  refine ⟨f', ?_, h2⟩
  unfold recvFrame
  simp only [h1, ok_bind]
  rw [direction_slave f' t h2 hs, if_neg (by decide), if_pos rfl, if_neg hp]

/-! noise: one byte that starts no telegram -/

theorem parse_noise (f : Frame) (n : Byte) (hn : n ≠ 0xE5 ∧ n ≠ 0x10 ∧ n ≠ 0x68) (buf : List Byte) (hb : buf.head? = some n) :
    mbusParse f buf 1 = .ok (-4, f) := by
  cases buf with
  | nil => simp at hb
  | cons b buf =>
    simp only [List.head?_cons, Option.some.injEq] at hb
    subst hb
    have h1 : b ≠ ACK_START := hn.1
    have h2 : b ≠ SHORT_START := hn.2.1
    have h3 : b ≠ LONG_START := hn.2.2
    unfold mbusParse
    rw [if_neg (by decide), show rd (b :: buf) 0 = .ok b from rfl, ok_bind, if_neg h1, if_neg h2, if_neg h3]

theorem store_one (n : Byte) (buff : List Byte) (h : 0 < buff.length) : ∃ buf, store buff 0 [n] = .ok buf ∧ buf.head? = some n := by
  cases buff with
  | nil => simp at h
  | cons b buff => exact ⟨n :: buff, rfl, rfl⟩

theorem tcpLoop_noise (n : Byte) (hn : n ≠ 0xE5 ∧ n ≠ 0x10 ∧ n ≠ 0x68) (f : Frame) (buff : List Byte) (hb : 0 < buff.length) :
    ∃ ev, tcpLoop [.data [n]] f buff 0 0 = .ok ⟨RECV_INVALID, f, [], ev⟩ := by
  obtain ⟨buf, h1, h2⟩ := store_one n buff hb
  have h3 := parse_noise f n hn buf h2
  refine ⟨some (buf.take 1), ?_⟩
  rw [tcpLoop, if_neg (by decide)]
  simp only [readEv, List.take_succ_cons, List.take_nil, List.length_cons, List.length_nil, Nat.zero_add, h1, h3]
  rfl

theorem serialLoop_noise (n : Byte) (hn : n ≠ 0xE5 ∧ n ≠ 0x10 ∧ n ≠ 0x68) (f : Frame) (buff : List Byte) (hb : 0 < buff.length) :
    ∃ ev, serialLoop [.data [n]] f buff 0 0 0 = .ok ⟨RECV_INVALID, f, [], ev⟩ := by
  obtain ⟨buf, h1, h2⟩ := store_one n buff hb
  have h3 := parse_noise f n hn buf h2
  refine ⟨some (buf.take 1), ?_⟩
  rw [serialLoop, if_neg (by decide)]
  simp only [readEv, List.take_succ_cons, List.take_nil, List.length_cons, List.length_nil, Nat.zero_add, h1, h3]
  rfl

theorem kind_recv_noise (k : Kind) (tty : Bool) (ho : k = .tcp ∨ tty = true) (n : Byte) (hn : n ≠ 0xE5 ∧ n ≠ 0x10 ∧ n ≠ 0x68) (f : Frame) :
    ∃ ev, kindRecv k tty [.data [n]] f = .ok ⟨RECV_INVALID, f, [], ev⟩ := by
  have hb : 0 < (List.replicate PACKET_BUFF_SIZE (0 : Byte)).length := by rw [List.length_replicate]; decide
  cases k with
  | tcp => exact tcpLoop_noise n hn f _ hb
  | serial =>
    rcases ho with h | h
    · cases h
    · subst h
      exact serialLoop_noise n hn f _ hb

theorem bus_recv_noise (k : Kind) (env : Env) (ho : IsOpen k env) (sent : List (List Byte)) (n : Byte)
    (hn : n ≠ 0xE5 ∧ n ≠ 0x10 ∧ n ≠ 0x68) (f : Frame) :
    (busLink k env).recv ⟨[.data [n]], sent⟩ f = .ok (RECV_INVALID, f, ⟨[], sent⟩) := by
  obtain ⟨ev, h1⟩ := kind_recv_noise k env.tty ho n hn f
  show (kindRecv k env.tty [.data [n]] f >>= _) = _
  rw [h1]; rfl

end Mbus
