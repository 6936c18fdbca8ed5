import Verif.Spec.Poll
import Verif.Props.Select
/-
C121: whose data does a call deliver?  The library does not look at the address field of a reply.
-/
namespace Mbus
open Spec

/-- C121 helper: a telegram at the head of the line is received, the rest stays -/
theorem recv_first (k : Kind) (env : Env) (ho : IsOpen k env) (purge : Int) (hp : purge ≠ PURGE_S2M) (sent : List (List Byte)) (t : Telegram)
    (hl : t.Legal) (hs : FromSlave t) (cs ds : List (List Byte)) (hcs : Chunks cs) (h1 : cs.flatten = t.wire) (f : Frame) :
    ∃ g, recvFrame (busLink k env) purge ⟨evs (cs ++ ds), sent⟩ f = .ok (RECV_OK, g, ⟨evs ds, sent⟩) ∧ Carries g t := by
  have hne : cs ≠ [] := by rintro rfl; cases t <;> simp [Telegram.wire] at h1
  have hf : ∀ skip, Feeds skip 0 (evs (cs ++ ds)) t.wire (evs ds) := by
    intro skip
    rw [← h1]
    clear h1 hne
    induction cs with
    | nil => exact .done _
    | cons c cs ih => exact .whole c (hcs c (by simp)) (ih fun x hx => hcs x (by simp [hx]))
  have key : ∃ g ev, kindRecv k env.tty (evs (cs ++ ds)) f = .ok ⟨RECV_OK, g, evs ds, ev⟩ ∧ Carries g t := by
    cases k with
    | tcp =>
      obtain ⟨g, a, b⟩ := C40_tcp_recv_delivers _ _ _ t f hl (hf .eintr)
      exact ⟨g, _, a, b⟩
    | serial =>
      rcases ho with h | h
      · cases h
      rw [h]
      obtain ⟨g, a, b⟩ := C41_serial_recv_delivers _ _ _ t f hl (hf _) (by omega) (by
        cases cs with
        | nil => exact absurd rfl hne
        | cons c cs =>
          have := hcs c (by simp)
          simp [evs, this])
      exact ⟨g, _, a, b⟩
  obtain ⟨g, ev, a, b⟩ := key
  refine ⟨g, ?_, b⟩
  have h1' : (busLink k env).recv ⟨evs (cs ++ ds), sent⟩ f = .ok (RECV_OK, g, ⟨evs ds, sent⟩) := by
    show (kindRecv k env.tty _ f >>= _) = _
    rw [a]; rfl
  unfold recvFrame
  simp only [h1', ok_bind]
  rw [direction_slave g t b hs, if_neg (by decide), if_pos rfl, if_neg hp]

theorem request_any (k : Kind) (env : Env) (ho : IsOpen k env) (hw : Mbus.Writable env) (purge : Int) (es : List Ev) (sent : List (List Byte)) (a : Byte) :
    sendRequest ((busLink k env).ops purge) ⟨es, sent⟩ a.toNat = .ok (0, ⟨es ++ env.respond (sent ++ [reqWire a]), sent ++ [reqWire a]⟩) := by
  have ha := a.toNat_lt
  have hs := bus_send k env ho ⟨es, sent⟩ _ _ (show Telegram.Legal (.short 0x5B a) from (by decide : (0x5B : Byte) ∈ shortCodes)) (packs_short 0x5B a)
  unfold sendRequest
  rw [if_neg (by rw [(isPrimary_iff _).mpr ⟨by omega, by omega⟩]; decide)]
  have hb : UInt8.ofNat ((a.toNat : Int).toNat) = a := by simp
  rw [hb]
  show ((busLink k env).send ⟨es, sent⟩ { frameNew TYPE_SHORT with control := 0x5B, address := a } >>= _) = _
  rw [hs, hw, if_pos rfl, ok_bind]
  simp only
  rw [if_neg (by decide)]
  rfl

theorem evs_append (cs ds : List (List Byte)) : evs (cs ++ ds) = evs cs ++ evs ds := by simp [evs]

/-- a read with a telegram already waiting on the line -/
theorem read_first (k : Kind) (env : Env) (ho : IsOpen k env) (hw : Mbus.Writable env) (purge : Int) (hp : purge ≠ PURGE_S2M) (sent : List (List Byte)) (a : Byte)
    (cs ds : List (List Byte)) (hcs : Chunks cs) (t : Telegram) (hl : t.Legal) (hs : FromSlave t) (h1 : cs.flatten = t.wire)
    (f : Frame) (es : List Ev) (he : es ++ env.respond (sent ++ [reqWire a]) = evs (cs ++ ds)) :
    ∃ g, readSlave ((busLink k env).ops purge) ⟨es, sent⟩ (.primary a.toNat) f = .ok (0, g, ⟨evs ds, sent ++ [reqWire a]⟩) ∧ Carries g t := by
  obtain ⟨g, h2, h3⟩ := recv_first k env ho purge hp (sent ++ [reqWire a]) t hl hs cs ds hcs h1 f
  refine ⟨g, ?_, h3⟩
  unfold readSlave
  simp only
  rw [request_any k env ho hw purge es sent a, ok_bind]
  simp only
  rw [if_neg (by decide), he]
  show (recvFrame (busLink k env) purge ⟨evs (cs ++ ds), _⟩ f >>= _) = _
  rw [h2, ok_bind]
  rfl

theorem Spec.SentBy.slave {a : Byte} {t : Telegram} (h : SentBy a t) : FromSlave t := by
  obtain ⟨_, c, ci, p, rfl, h⟩ := h
  exact h

/-- C121 (all answers in time): every call returns the telegram of the meter it was asked for, -1 for an absent meter; for every
population of meters, every list of addresses (with repetitions), both transports, all chunkings. -/
theorem C121_punctual (k : Kind) (env : Env) (ho : IsOpen k env) (hw : Mbus.Writable env) (purge : Int) (hp : purge ≠ PURGE_S2M)
    (meter : Byte → Option Telegram) (hpop : Population meter) (hpun : Punctual env meter) (as : List Byte) : ∀ sent,
    ∃ l, poll ((busLink k env).ops purge) ⟨[], sent⟩ as = .ok (l, ⟨[], sent ++ as.map reqWire⟩) ∧ l.length = as.length ∧
      ∀ i (h1 : i < l.length) (h2 : i < as.length), Returns l[i] (meter as[i]) := by
  induction as with
  | nil => intro sent; exact ⟨[], by simp [poll], rfl, by simp⟩
  | cons a as ih =>
    intro sent
    have one : ∃ r f, readSlave ((busLink k env).ops purge) ⟨[], sent⟩ (.primary a.toNat) Frame.zero = .ok (r, f, ⟨[], sent ++ [reqWire a]⟩) ∧ Returns (r, f) (meter a) := by
      obtain ⟨cs, hc, hfl, hr⟩ := hpun sent a
      cases hm : meter a with
      | some t =>
        rw [hm] at hfl
        have hsb := hpop a t hm
        obtain ⟨g, e1, e2⟩ := read_first k env ho hw purge hp sent a cs [] hc t hsb.1 hsb.slave hfl Frame.zero [] (by rw [hr]; simp)
        exact ⟨0, g, e1, rfl, e2⟩
      | none =>
        rw [hm] at hfl
        have hcs : cs = [] := by
          cases cs with
          | nil => rfl
          | cons c cs =>
            simp only [List.flatten_cons, List.append_eq_nil_iff] at hfl
            exact absurd hfl.1 (hc c (by simp))
        refine ⟨-1, Frame.zero, ?_, rfl⟩
        unfold readSlave
        simp only
        rw [request_any k env ho hw purge [] sent a, ok_bind]
        simp only
        rw [if_neg (by decide), hr, hcs]
        show (recvFrame (busLink k env) purge ⟨[], _⟩ Frame.zero >>= _) = _
        rw [recv_silent k env ho, ok_bind]
        rfl
    obtain ⟨r, f, e1, e2⟩ := one
    obtain ⟨l, e3, e4, e5⟩ := ih (sent ++ [reqWire a])
    refine ⟨(r, f) :: l, ?_, by simp [e4], ?_⟩
    · unfold poll
      rw [e1, ok_bind]
      simp only
      rw [e3, ok_bind]
      simp
    · intro i h1 h2
      cases i with
      | zero => exact e2
      | succ i => exact e5 i (by simpa using h1) (by simpa using h2)

/-- C121 (one late answer): a telegram `t` that arrived after its request had been given up is waiting on the line.  From then on,
on a bus where all meters are present and answer in time, every call returns 0 with the telegram that belongs to the call before
it, and the answer to the last request stays on the line for the next reader; for all lists of addresses. -/
theorem C121_late_violation (k : Kind) (env : Env) (ho : IsOpen k env) (hw : Mbus.Writable env) (purge : Int) (hp : purge ≠ PURGE_S2M)
    (meter : Byte → Telegram) (hpop : Population fun a => some (meter a)) (hpun : Punctual env fun a => some (meter a)) (as : List Byte) :
    ∀ sent (b0 : Byte) (t : Telegram), SentBy b0 t → ∀ es, Arrives t.wire es →
    ∃ l es', poll ((busLink k env).ops purge) ⟨es, sent⟩ as = .ok (l, ⟨es', sent ++ as.map reqWire⟩) ∧ l.length = as.length ∧
      Arrives ((t :: as.map meter).getLast (by simp)).wire es' ∧
      ∀ i (h1 : i < l.length) (h2 : i < as.length), l[i].1 = 0 ∧
        Carries l[i].2 ((t :: as.map meter)[i]'(by simp; omega)) ∧ l[i].2.address = (b0 :: as)[i]'(by simp; omega) := by
  induction as with
  | nil => intro sent b0 t hsb es ha; exact ⟨[], es, by simp [poll], rfl, ha, by simp⟩
  | cons a as ih =>
    intro sent b0 t hsb es ⟨cs, hc, hfl, hes⟩
    obtain ⟨ds, hd, hdf, hr⟩ := hpun sent a
    obtain ⟨g, e1, e2⟩ := read_first k env ho hw purge hp sent a cs ds hc t hsb.1 hsb.slave hfl Frame.zero es (by rw [hes, hr, evs_append])
    obtain ⟨l, es', e3, e4, e5, e6⟩ := ih (sent ++ [reqWire a]) a (meter a) (hpop a _ rfl) (evs ds) ⟨ds, hd, hdf, rfl⟩
    refine ⟨(0, g) :: l, es', ?_, by simp [e4], ?_, ?_⟩
    · unfold poll
      rw [e1, ok_bind]
      simp only
      rw [e3, ok_bind]
      simp
    · simpa using e5
    · intro i h1 h2
      cases i with
      | zero =>
        refine ⟨rfl, e2, ?_⟩
        obtain ⟨_, c, ci, p, rfl, _⟩ := hsb
        exact e2.2.2.1
      | succ i => exact e6 i (by simpa using h1) (by simpa using h2)

/-- C121 (resynchronising): whatever is waiting on the line - late answers, fragments, noise - after `mbus_purge_frames` every
call again returns the telegram of the meter it was asked for. -/
theorem C121_purge_resync (k : Kind) (env : Env) (ho : IsOpen k env) (hw : Mbus.Writable env) (purge : Int) (hp : purge ≠ PURGE_S2M)
    (meter : Byte → Option Telegram) (hpop : Population meter) (hpun : Punctual env meter) (as : List Byte) (sent : List (List Byte))
    (bs : List Byte) (es : List Ev) (ha : Arrives bs es) :
    ∃ r b l, ((busLink k env).ops purge).purge ⟨es, sent⟩ = .ok (r, b) ∧
      poll ((busLink k env).ops purge) b as = .ok (l, ⟨[], sent ++ as.map reqWire⟩) ∧ l.length = as.length ∧
      ∀ i (h1 : i < l.length) (h2 : i < as.length), Returns l[i] (meter as[i]) := by
  obtain ⟨cs, hc, _, rfl⟩ := ha
  obtain ⟨r, h1⟩ := purge_drains k env ho purge sent cs hc
  obtain ⟨l, h2⟩ := C121_punctual k env ho hw purge hp meter hpop hpun as sent
  exact ⟨r, _, l, h1, h2⟩

/-! ### secondary addresses -/

theorem Spec.Arrives.nil {es : List Ev} (h : Arrives [] es) : es = [] := by
  obtain ⟨cs, hc, hf, rfl⟩ := h
  cases cs with
  | nil => rfl
  | cons c cs =>
    simp only [List.flatten_cons, List.append_eq_nil_iff] at hf
    exact absurd hf.1 (hc c (by simp))

theorem sendSelect_any (k : Kind) (env : Env) (ho : IsOpen k env) (hw : Mbus.Writable env) (purge : Int) (es : List Ev) (sent : List (List Byte)) (mask : List Byte)
    (hm : AddressMask mask) :
    sendSelect ((busLink k env).ops purge) ⟨es, sent⟩ mask = .ok (0, ⟨es ++ env.respond (sent ++ [(selT mask).wire]), sent ++ [(selT mask).wire]⟩) := by
  obtain ⟨d, h1, h2⟩ := selectPack_eq (frameNew TYPE_LONG) mask hm.1 hm.2
  have hlen := selBytes_length mask hm
  have hp := packs_long 0x73 0xFD 0x52 d 8 (by omega)
  rw [h2] at hp
  have hs := bus_send k env ho ⟨es, sent⟩ _ _ (show Telegram.Legal (.data 0x73 0xFD 0x52 (selBytes mask)) from ⟨(by decide : (0x73 : Byte) ∈ dataCodes), by omega⟩) hp
  unfold sendSelect
  rw [h1, ok_bind]
  simp only
  rw [if_neg (by decide)]
  show ((busLink k env).send ⟨es, sent⟩ _ >>= _) = _
  rw [hs, hw, if_pos rfl, ok_bind]
  simp only
  rw [if_neg (by decide)]
  rfl

section
variable (k : Kind) (env : Env) (ho : IsOpen k env) (hw : Mbus.Writable env) (purge : Int) (hp : purge ≠ PURGE_S2M) (sent : List (List Byte))
  (mask : List Byte) (hm : AddressMask mask)
include ho hw hp hm

/-- the acknowledge of an earlier selection is waiting -/
theorem select_stale_ack (es : List Ev) (he : Arrives [0xE5] es) :
    (env.respond (sent ++ [(selT mask).wire]) = [] →
      selectSecondary ((busLink k env).ops purge) ⟨es, sent⟩ mask = .ok (PROBE_SINGLE, ⟨[], sent ++ [(selT mask).wire]⟩)) ∧
    (Arrives [0xE5] (env.respond (sent ++ [(selT mask).wire])) →
      selectSecondary ((busLink k env).ops purge) ⟨es, sent⟩ mask = .ok (PROBE_COLLISION, ⟨[], sent ++ [(selT mask).wire]⟩)) := by
  obtain ⟨cs, hc, hf, rfl⟩ := he
  have first : ∀ ds, ∃ g, recvFrame (busLink k env) purge ⟨evs (cs ++ ds), sent ++ [(selT mask).wire]⟩ Frame.zero = .ok (RECV_OK, g, ⟨evs ds, sent ++ [(selT mask).wire]⟩) ∧ g.type = TYPE_ACK :=
    fun ds => recv_first k env ho purge hp _ .ack trivial trivial cs ds hc hf _
  constructor
  · intro hr
    obtain ⟨g, h1, h2⟩ := first []
    unfold selectSecondary
    rw [if_neg (by have := hm.1; omega), sendSelect_any k env ho hw purge _ sent mask hm, ok_bind]
    simp only
    rw [if_neg (by decide), hr, show evs cs ++ [] = evs (cs ++ []) by simp]
    show (recvFrame (busLink k env) purge _ Frame.zero >>= _) = _
    rw [h1, ok_bind]
    simp only
    rw [if_neg (by decide), if_neg (by decide), if_pos h2]
    show (purgeFrames (busLink k env) purge ⟨[], _⟩ >>= _) = _
    rw [purge_silent k env ho, ok_bind]
    rfl
  · rintro ⟨ds, hd, hdf, hr⟩
    obtain ⟨g, h1, h2⟩ := first ds
    unfold selectSecondary
    rw [if_neg (by have := hm.1; omega), sendSelect_any k env ho hw purge _ sent mask hm, ok_bind]
    simp only
    rw [if_neg (by decide), hr, ← evs_append]
    show (recvFrame (busLink k env) purge _ Frame.zero >>= _) = _
    rw [h1, ok_bind]
    simp only
    rw [if_neg (by decide), if_neg (by decide), if_pos h2]
    obtain ⟨p, h3⟩ := purge_drains k env ho purge (sent ++ [(selT mask).wire]) ds hd
    show (purgeFrames (busLink k env) purge ⟨evs ds, _⟩ >>= _) = _
    obtain ⟨c, f, s1, h4, h5⟩ := C47_purge_result _ _ _ _ _ h3
    obtain ⟨g', h6, _⟩ := recv_first k env ho purge hp (sent ++ [(selT mask).wire]) .ack trivial trivial ds [] hd hdf Frame.zero
    rw [List.append_nil, h4] at h6
    cases h6
    rw [if_pos (.inl rfl)] at h5
    rw [h3, ok_bind, h5]
    rfl

/-- user data of some meter is waiting -/
theorem select_stale_data (b0 : Byte) (t : Telegram) (ht : SentBy b0 t) (es : List Ev) (he : Arrives t.wire es) (bs : List Byte)
    (hr : Arrives bs (env.respond (sent ++ [(selT mask).wire]))) :
    selectSecondary ((busLink k env).ops purge) ⟨es, sent⟩ mask = .ok (PROBE_NOTHING, ⟨env.respond (sent ++ [(selT mask).wire]), sent ++ [(selT mask).wire]⟩) := by
  obtain ⟨cs, hc, hf, rfl⟩ := he
  obtain ⟨ds, hd, hdf, hr⟩ := hr
  obtain ⟨g, h1, h2⟩ := recv_first k env ho purge hp (sent ++ [(selT mask).wire]) t ht.1 ht.slave cs ds hc hf Frame.zero
  unfold selectSecondary
  rw [if_neg (by have := hm.1; omega), sendSelect_any k env ho hw purge _ sent mask hm, ok_bind]
  simp only
  rw [if_neg (by decide), hr, ← evs_append]
  show (recvFrame (busLink k env) purge _ Frame.zero >>= _) = _
  rw [h1, ok_bind]
  simp only
  have h3 : g.type ≠ TYPE_ACK := by
    obtain ⟨_, c, ci, p, rfl, _⟩ := ht
    have := h2.1
    rw [this]
    split <;> decide
  rw [if_neg (by decide), if_neg (by decide), if_neg h3]

end

/-- reading by secondary address on a clean line -/
theorem read_secondary_clean (k : Kind) (env : Env) (ho : IsOpen k env) (hw : Mbus.Writable env) (purge : Int) (hp : purge ≠ PURGE_S2M)
    (sent : List (List Byte)) (ms : List (List Byte)) (meter : List Byte → Option Telegram) (hsel : PunctualSelect env ms meter)
    (hpop : ∀ m t, meter m = some t → ∃ a, SentBy a t) (m : List Byte) (hmem : m ∈ ms) (hm : AddressMask m) :
    ∃ r f s', readSlave ((busLink k env).ops purge) ⟨[], sent⟩ (.secondary m) Frame.zero = .ok (r, f, ⟨[], s'⟩) ∧ Returns (r, f) (meter m) := by
  obtain ⟨hr1, hr2⟩ := hsel m hmem sent
  cases hmt : meter m with
  | none =>
    rw [hmt] at hr1
    have h1 := select_silence k env ho hw purge sent m hm hr1.nil
    refine ⟨-1, Frame.zero, sent ++ [(selT m).wire], ?_, rfl⟩
    unfold readSlave
    simp only
    rw [h1, ok_bind]
    rfl
  | some t =>
    rw [hmt] at hr1 hr2
    obtain ⟨cs, hc, hf, hr⟩ := hr1
    obtain ⟨r, h1, _, h2, _⟩ := select_ack k env ho hw purge hp sent m hm cs hc hr [] hf
    rw [h2 rfl] at h1
    obtain ⟨a, ht⟩ := hpop m t hmt
    obtain ⟨ds, hd, hdf, hr2⟩ := hr2
    obtain ⟨g, h3, h4⟩ := recv_first k env ho purge hp (sent ++ [(selT m).wire] ++ [reqWire 0xFD]) t ht.1 ht.slave ds [] hd hdf Frame.zero
    refine ⟨0, g, sent ++ [(selT m).wire] ++ [reqWire 0xFD], ?_, rfl, h4⟩
    unfold readSlave
    simp only
    rw [h1, ok_bind]
    simp only
    have h5 := request_any k env ho hw purge [] (sent ++ [(selT m).wire]) 0xFD
    rw [show ((0xFD : Byte).toNat : Int) = 0xFD from rfl] at h5
    rw [if_neg (by decide), if_neg (by decide), if_neg (by decide), h5, ok_bind]
    simp only
    rw [if_neg (by decide), hr2, List.nil_append, show evs ds = evs (ds ++ []) by simp]
    show (recvFrame (busLink k env) purge _ Frame.zero >>= _) = _
    rw [h3, ok_bind]
    rfl

/-- the list functions over a clean line -/
theorem pollSecondary_clean (k : Kind) (env : Env) (ho : IsOpen k env) (hw : Mbus.Writable env) (purge : Int) (hp : purge ≠ PURGE_S2M)
    (all : List (List Byte)) (meter : List Byte → Option Telegram) (hsel : PunctualSelect env all meter) (hmask : ∀ m ∈ all, AddressMask m)
    (hpop : ∀ m t, meter m = some t → ∃ a, SentBy a t) (ms : List (List Byte)) (hsub : ∀ m ∈ ms, m ∈ all) : ∀ sent,
    ∃ l s', pollSecondary ((busLink k env).ops purge) ⟨[], sent⟩ ms = .ok (l, ⟨[], s'⟩) ∧ l.length = ms.length ∧
      ∀ i (h1 : i < l.length) (h2 : i < ms.length), Returns l[i] (meter ms[i]) := by
  induction ms with
  | nil => intro sent; exact ⟨[], sent, by simp [pollSecondary], rfl, by simp⟩
  | cons m ms ih =>
    intro sent
    have hin := hsub m (by simp)
    obtain ⟨r, f, s1, e1, e2⟩ := read_secondary_clean k env ho hw purge hp sent all meter hsel hpop m hin (hmask m hin)
    obtain ⟨l, s2, e3, e4, e5⟩ := ih (fun x hx => hsub x (by simp [hx])) s1
    refine ⟨(r, f) :: l, s2, ?_, by simp [e4], ?_⟩
    · unfold pollSecondary
      rw [e1, ok_bind]
      simp only
      rw [e3, ok_bind]
    · intro i h1 h2
      cases i with
      | zero => exact e2
      | succ i => exact e5 i (by simpa using h1) (by simpa using h2)

/-- a failed first read, then the rest -/
theorem pollSecondary_cons {σ : Type} (o : Ops σ) (s : σ) (m : List Byte) (ms : List (List Byte)) (r : Int) (f : Frame) (s1 s2 : σ) (l : List (Int × Frame))
    (h1 : readSlave o s (.secondary m) Frame.zero = .ok (r, f, s1)) (h2 : pollSecondary o s1 ms = .ok (l, s2)) :
    pollSecondary o s (m :: ms) = .ok ((r, f) :: l, s2) := by
  unfold pollSecondary
  rw [h1, ok_bind]
  simp only
  rw [h2, ok_bind]

/-- C121 (secondary addresses, late answer): with a late telegram of any meter waiting on the line, a program that reads its
meters by secondary address never gets the data of another meter: at most the first two calls return -1, all later calls return
the telegram of the meter they name (-1 if there is none), and the line is clean again. -/
theorem C121_secondary (k : Kind) (env : Env) (ho : IsOpen k env) (hw : Mbus.Writable env) (purge : Int) (hp : purge ≠ PURGE_S2M)
    (ms : List (List Byte)) (hmask : ∀ m ∈ ms, AddressMask m) (meter : List Byte → Option Telegram) (hsel : PunctualSelect env ms meter)
    (hpop : ∀ m t, meter m = some t → ∃ a, SentBy a t) (sent : List (List Byte)) (b0 : Byte) (t : Telegram) (ht : SentBy b0 t)
    (es : List Ev) (he : Arrives t.wire es) (hlen : 2 ≤ ms.length) :
    ∃ l s', pollSecondary ((busLink k env).ops purge) ⟨es, sent⟩ ms = .ok (l, ⟨[], s'⟩) ∧ l.length = ms.length ∧
      ∀ i (h1 : i < l.length) (h2 : i < ms.length), (Returns l[i] (meter ms[i]) ∨ i < 2 ∧ l[i].1 = -1) := by
  match ms, hmask, hsel, hlen with
  | m1 :: m2 :: ms, hmask, hsel, _ =>
    have hm1 := hmask m1 (by simp)
    have hm2 := hmask m2 (by simp)
    obtain ⟨hr1, _⟩ := hsel m1 (by simp) sent
    have e1 := select_stale_data k env ho hw purge hp sent m1 hm1 b0 t ht es he _ hr1
    have e2 : readSlave ((busLink k env).ops purge) ⟨es, sent⟩ (.secondary m1) Frame.zero = .ok (-1, Frame.zero, ⟨env.respond (sent ++ [(selT m1).wire]), sent ++ [(selT m1).wire]⟩) := by
      unfold readSlave
      simp only
      rw [e1, ok_bind]
      rfl
    -- the rest of the program, once the line is clean
    have clean := fun sent => pollSecondary_clean k env ho hw purge hp (m1 :: m2 :: ms) meter hsel hmask hpop ms (fun m h => by simp [h]) sent
    have finish : ∀ s0 r f s1, readSlave ((busLink k env).ops purge) s0 (.secondary m2) Frame.zero = .ok (r, f, ⟨[], s1⟩) →
        s0 = ⟨env.respond (sent ++ [(selT m1).wire]), sent ++ [(selT m1).wire]⟩ → (Returns (r, f) (meter m2) ∨ r = -1) →
        ∃ l s', pollSecondary ((busLink k env).ops purge) ⟨es, sent⟩ (m1 :: m2 :: ms) = .ok (l, ⟨[], s'⟩) ∧ l.length = (m1 :: m2 :: ms).length ∧
          ∀ i (h1 : i < l.length) (h2 : i < (m1 :: m2 :: ms).length), (Returns l[i] (meter (m1 :: m2 :: ms)[i]) ∨ i < 2 ∧ l[i].1 = -1) := by
      intro s0 r f s1 h hs0 hret
      subst hs0
      obtain ⟨l, s', h3, h4, h5⟩ := clean s1
      refine ⟨(-1, Frame.zero) :: (r, f) :: l, s', pollSecondary_cons _ _ _ _ _ _ _ _ _ e2 (pollSecondary_cons _ _ _ _ _ _ _ _ _ h h3), by simp [h4], ?_⟩
      intro i h1 h2
      match i with
      | 0 => exact .inr ⟨by omega, rfl⟩
      | 1 =>
        rcases hret with h | h
        · exact .inl h
        · exact .inr ⟨by omega, h⟩
      | i + 2 => exact .inl (h5 i (by simpa using h1) (by simpa using h2))
    obtain ⟨hr3, hr4⟩ := hsel m2 (by simp) (sent ++ [(selT m1).wire])
    cases h1 : meter m1 with
    | none =>
      rw [h1] at hr1
      have hnil := hr1.nil
      obtain ⟨r, f, s1, h2, h3⟩ := read_secondary_clean k env ho hw purge hp (sent ++ [(selT m1).wire]) _ meter hsel hpop m2 (by simp) hm2
      exact finish _ r f s1 h2 (by rw [hnil]) (.inl h3)
    | some t1 =>
      rw [h1] at hr1
      have hst := select_stale_ack k env ho hw purge hp (sent ++ [(selT m1).wire]) m2 hm2 _ hr1
      cases h2 : meter m2 with
      | none =>
        rw [h2] at hr3 hr4
        have h3 := hst.1 hr3.nil
        refine finish _ (-1) Frame.zero (sent ++ [(selT m1).wire] ++ [(selT m2).wire] ++ [reqWire 0xFD]) ?_ rfl (.inr rfl)
        unfold readSlave
        simp only
        rw [h3, ok_bind]
        simp only
        have h5 := request_any k env ho hw purge [] (sent ++ [(selT m1).wire] ++ [(selT m2).wire]) 0xFD
        rw [show ((0xFD : Byte).toNat : Int) = 0xFD from rfl] at h5
        rw [if_neg (by decide), if_neg (by decide), if_neg (by decide), h5, ok_bind]
        simp only
        rw [if_neg (by decide), hr4.nil, List.nil_append]
        show (recvFrame (busLink k env) purge ⟨[], _⟩ Frame.zero >>= _) = _
        rw [recv_silent k env ho, ok_bind]
        rfl
      | some t2 =>
        rw [h2] at hr3
        have h3 := hst.2 hr3
        refine finish _ (-1) Frame.zero (sent ++ [(selT m1).wire] ++ [(selT m2).wire]) ?_ rfl (.inr rfl)
        unfold readSlave
        simp only
        rw [h3, ok_bind]
        rfl

/-! ### non-vacuity -/

/-- a telegram of station `a` (12 bytes of data) -/
def pollTelegram (a : Byte) : Telegram := .data 0x08 a 0x72 [a, 0, 0, 0, 0, 0, 0, 0, 0, 0, 0, 0]

/-- a bus where every station answers, in two chunks -/
def pollBus : Env :=
  { respond := fun sent => match sent.getLast? with
      | some [0x10, 0x5B, a, _, 0x16] => [.data ((pollTelegram a).wire.take 3), .data ((pollTelegram a).wire.drop 3)]
      | _ => []
    junk := fun _ => 0, wret := fun _ n => n, tty := true }

theorem pollTelegram_sent (a : Byte) : SentBy a (pollTelegram a) :=
  ⟨⟨by decide, by simp⟩, 0x08, 0x72, _, rfl, by decide⟩

theorem pollTelegram_arrives (a : Byte) : Arrives (pollTelegram a).wire [.data ((pollTelegram a).wire.take 3), .data ((pollTelegram a).wire.drop 3)] := by
  refine ⟨[(pollTelegram a).wire.take 3, (pollTelegram a).wire.drop 3], ?_, by simp, rfl⟩
  intro c hc
  simp only [List.mem_cons, List.not_mem_nil, or_false] at hc
  rcases hc with rfl | rfl <;> simp [pollTelegram, Telegram.wire]

theorem pollBus_punctual : Punctual pollBus fun a => some (pollTelegram a) := by
  intro sent a
  have : pollBus.respond (sent ++ [reqWire a]) = [.data ((pollTelegram a).wire.take 3), .data ((pollTelegram a).wire.drop 3)] := by
    simp [pollBus, reqWire, Telegram.wire]
  rw [this]
  exact pollTelegram_arrives a

/-- with a late telegram of station 9 on the line, reading 1, 2, 3 returns the data of 9, 1, 2 -/
example (k : Kind) : ∃ l b, poll ((busLink k pollBus).ops PURGE_M2S)
    ⟨[.data ((pollTelegram 9).wire.take 3), .data ((pollTelegram 9).wire.drop 3)], []⟩ [1, 2, 3] = .ok (l, b) ∧ l.map (·.1) = [0, 0, 0] ∧
      l.map (·.2.address) = [9, 1, 2] := by
  obtain ⟨l, es', h1, h2, _, h3⟩ := C121_late_violation k pollBus (.inr rfl) (fun _ _ => rfl) PURGE_M2S (by decide) pollTelegram
    (fun a t h => by cases h; exact pollTelegram_sent a) pollBus_punctual [1, 2, 3] [] 9 (pollTelegram 9) (pollTelegram_sent 9) _ (pollTelegram_arrives 9)
  refine ⟨l, _, h1, ?_⟩
  match l, h2, h3 with
  | [x, y, z], _, h3 =>
    have a := h3 0 (by simp) (by decide)
    have b := h3 1 (by simp) (by decide)
    have c := h3 2 (by simp) (by decide)
    simp only [List.getElem_cons_zero, List.getElem_cons_succ] at a b c
    simp [a.1, b.1, c.1, a.2.2, b.2.2, c.2.2]

/-- without it, the data of 1, 2, 3 -/
example (k : Kind) : ∃ l b, poll ((busLink k pollBus).ops PURGE_M2S) ⟨[], []⟩ [1, 2, 3] = .ok (l, b) ∧ l.map (·.2.address) = [1, 2, 3] := by
  obtain ⟨l, h1, h2, h3⟩ := C121_punctual k pollBus (.inr rfl) (fun _ _ => rfl) PURGE_M2S (by decide) (fun a => some (pollTelegram a))
    (fun a t h => by cases h; exact pollTelegram_sent a) pollBus_punctual [1, 2, 3] []
  refine ⟨l, _, h1, ?_⟩
  match l, h2, h3 with
  | [x, y, z], _, h3 =>
    have a : Returns x (some (pollTelegram 1)) := h3 0 (by simp) (by decide)
    have b : Returns y (some (pollTelegram 2)) := h3 1 (by simp) (by decide)
    have c : Returns z (some (pollTelegram 3)) := h3 2 (by simp) (by decide)
    simp [show x.2.address = 1 from a.2.2.2.1, show y.2.address = 2 from b.2.2.2.1, show z.2.address = 3 from c.2.2.2.1]

/-- after a purge of the late telegram and half of another one, too -/
example (k : Kind) : ∃ r b l b', ((busLink k pollBus).ops PURGE_M2S).purge
      ⟨[.data ((pollTelegram 9).wire ++ (pollTelegram 8).wire.take 5)], []⟩ = .ok (r, b) ∧
    poll ((busLink k pollBus).ops PURGE_M2S) b [4] = .ok (l, b') ∧ l.map (·.2.address) = [4] := by
  obtain ⟨r, b, l, h0, h1, h2, h3⟩ := C121_purge_resync k pollBus (.inr rfl) (fun _ _ => rfl) PURGE_M2S (by decide) (fun a => some (pollTelegram a))
    (fun a t h => by cases h; exact pollTelegram_sent a) pollBus_punctual [4] [] _ _
    ⟨[(pollTelegram 9).wire ++ (pollTelegram 8).wire.take 5], by unfold Chunks; decide, rfl, rfl⟩
  refine ⟨r, b, l, _, h0, h1, ?_⟩
  match l, h2, h3 with
  | [x], _, h3 =>
    have a : Returns x (some (pollTelegram 4)) := h3 0 (by simp) (by decide)
    simp [show x.2.address = 4 from a.2.2.2.1]

/-- a bus with one meter, secondary address 12345678... -/
def pickBus : Env :=
  { respond := fun sent =>
      if sent.getLast? = some (selT (cs! "12345678FFFFFFFF")).wire then [.data [0xE5]]
      else if sent.getLast? = some (reqWire 0xFD) ∧ sent.dropLast.getLast? = some (selT (cs! "12345678FFFFFFFF")).wire then
        [.data ((pollTelegram 7).wire.take 3), .data ((pollTelegram 7).wire.drop 3)]
      else []
    junk := fun _ => 0, wret := fun _ n => n, tty := true }

/-- two reads fail, the third one succeeds, the fourth names no meter -/
example (k : Kind) : ∃ l b, pollSecondary ((busLink k pickBus).ops PURGE_M2S)
    ⟨[.data ((pollTelegram 9).wire.take 3), .data ((pollTelegram 9).wire.drop 3)], []⟩
    [cs! "12345678FFFFFFFF", cs! "12345678FFFFFFFF", cs! "12345678FFFFFFFF", cs! "99999999FFFFFFFF"] = .ok (l, b) ∧
    ∃ x y z w, l = [x, y, z, w] ∧ z.1 = 0 ∧ z.2.address = 7 ∧ w.1 = -1 := by
  have hsel : PunctualSelect pickBus [cs! "12345678FFFFFFFF", cs! "12345678FFFFFFFF", cs! "12345678FFFFFFFF", cs! "99999999FFFFFFFF"]
      (fun m => if m = cs! "12345678FFFFFFFF" then some (pollTelegram 7) else none) := by
    intro m hm sent
    have hcase : m = cs! "12345678FFFFFFFF" ∨ m = cs! "99999999FFFFFFFF" := by
      simp only [List.mem_cons, List.not_mem_nil, or_false] at hm
      rcases hm with h | h | h | h
      · exact .inl h
      · exact .inl h
      · exact .inl h
      · exact .inr h
    have n1 : reqWire 0xFD ≠ (selT (cs! "12345678FFFFFFFF")).wire := by decide
    have n2 : (selT (cs! "99999999FFFFFFFF")).wire ≠ (selT (cs! "12345678FFFFFFFF")).wire := by decide
    have n3 : (selT (cs! "99999999FFFFFFFF")).wire ≠ reqWire 0xFD := by decide
    rcases hcase with rfl | rfl
    · simp only; rw [if_pos trivial]
      refine ⟨⟨[[0xE5]], by unfold Chunks; decide, rfl, by simp [pickBus, evs]⟩, ?_⟩
      have : pickBus.respond (sent ++ [(selT (cs! "12345678FFFFFFFF")).wire] ++ [reqWire 0xFD]) = [.data ((pollTelegram 7).wire.take 3), .data ((pollTelegram 7).wire.drop 3)] := by
        simp only [pickBus, List.getLast?_concat, List.dropLast_concat, Option.some.injEq]
        rw [if_neg n1, if_pos ⟨trivial, trivial⟩]
      rw [this]
      exact pollTelegram_arrives 7
    · simp only; rw [if_neg (by decide)]
      refine ⟨⟨[], by unfold Chunks; decide, rfl, ?_⟩, ⟨[], by unfold Chunks; decide, rfl, ?_⟩⟩
      · simp only [pickBus, List.getLast?_concat, Option.some.injEq]
        rw [if_neg n2, if_neg (fun h => n3 h.1)]
        rfl
      · simp only [pickBus, List.getLast?_concat, List.dropLast_concat, Option.some.injEq]
        rw [if_neg n1, if_neg (fun h => n2 h.2)]
        rfl
  obtain ⟨l, s', h1, h2, h3⟩ := C121_secondary k pickBus (.inr rfl) (fun _ _ => rfl) PURGE_M2S (by decide) _ (by unfold AddressMask; decide) _ hsel
    (fun m t h => by
      split at h
      · cases h; exact ⟨7, pollTelegram_sent 7⟩
      · cases h) [] 9 (pollTelegram 9) (pollTelegram_sent 9) _ (pollTelegram_arrives 9) (by decide)
  refine ⟨l, _, h1, ?_⟩
  match l, h2, h3 with
  | [x, y, z, w], _, h3 =>
    have a := h3 2 (by simp) (by decide)
    have b := h3 3 (by simp) (by decide)
    refine ⟨x, y, z, w, rfl, ?_⟩
    rcases a with a | a
    · rcases b with b | b
      · have a : Returns z (some (pollTelegram 7)) := a
        have b : Returns w none := b
        exact ⟨a.1, a.2.2.2.1, b⟩
      · omega
    · omega

end Mbus
