import Verif.Props.Calls
import Verif.Spec.Events
import Verif.Lemmas.Calls
import Verif.Lemmas.CallSim
import Verif.Props.Transport
import Verif.Props.Value
import Verif.Props.Text
/-
Property theorems C100: the event callbacks report the traffic, for every program on a handle.
-/
namespace Mbus
open Spec

/-! ### the callbacks change nothing -/

theorem traced_sim (k : Kind) (env : Env) : LinkSim (tracedLink k env) (busLink k env) Prod.fst := by
  refine ⟨fun s f => ?_, fun s f => ?_⟩
  · show (sendFrame (match k with | .tcp => true | .serial => env.tty) env.junk (env.wret s.1.sent) f >>= _) =
      Except.map _ (sendFrame (match k with | .tcp => true | .serial => env.tty) env.junk (env.wret s.1.sent) f >>= _)
    rw [bind_map]
    apply bind_congr'
    rintro ⟨r, f, w⟩
    cases w with
    | none => rfl
    | some bs => dsimp only; rw [map_if]; split <;> rfl
  · show (kindRecv k env.tty s.1.script f >>= _) = Except.map _ (kindRecv k env.tty s.1.script f >>= _)
    rw [bind_map]
    apply bind_congr'
    intro out
    dsimp only
    split <;> rfl

/-- C100: a program behaves the same with and without the event callbacks registered. -/
theorem C100_transparent (k : Kind) (env : Env) (calls : List Call) (st : Settings) (b : Bus) (log : List Event) :
    runCalls (busLink k env) (st, b) calls = (runCalls (tracedLink k env) (st, b, log) calls).map fun h => (h.1, h.2.1) :=
  calls_sim (traced_sim k env) calls (st, b, log)

/-! ### what is reported -/

theorem sendsOf_append (a b : List Event) : sendsOf (a ++ b) = sendsOf a ++ sendsOf b := by simp [sendsOf]
theorem recvsOf_append (a b : List Event) : recvsOf (a ++ b) = recvsOf a ++ recvsOf b := by simp [recvsOf]

theorem takenBy_append (wret : List (List Byte) → Nat → Int) (xs : List (List Byte)) (x : List Byte) : ∀ before,
    takenBy wret before (xs ++ [x]) = takenBy wret before xs ++ (if wret (before ++ xs) x.length = x.length then [x] else []) := by
  induction xs with
  | nil => intro before; simp [takenBy]
  | cons y xs ih => intro before; simp [takenBy, ih]

theorem arrivals_append (respond : List (List Byte) → List Ev) (xs : List (List Byte)) (x : List Byte) : ∀ before,
    arrivals respond before (xs ++ [x]) = arrivals respond before xs ++ respond (before ++ xs ++ [x]) := by
  induction xs with
  | nil => intro before; simp [arrivals]
  | cons y xs ih => intro before; simp [arrivals, ih]

theorem evBytes_append (a b : List Ev) : evBytes (a ++ b) = evBytes a ++ evBytes b := by
  induction a with
  | nil => rfl
  | cons e a ih => cases e <;> simp [evBytes, ih]

theorem evBytes_replicate (j : Nat) (e : Ev) (h : evBytes [e] = []) : evBytes (List.replicate j e) = [] := by
  induction j with
  | zero => rfl
  | succ j ih =>
    rw [List.replicate_succ, ← List.singleton_append, evBytes_append, h, ih]; rfl

theorem feeds_bytes {skip : Ev} {k : Nat} {es es' : List Ev} {bs : List Byte} (hs : evBytes [skip] = []) (h : Feeds skip k es bs es') :
    evBytes es = bs ++ evBytes es' := by
  induction h with
  | done => rfl
  | skip _ _ ih => rw [← List.singleton_append, evBytes_append, hs, ih]; rfl
  | whole c _ _ ih => simp [evBytes, ih]
  | part c d es _ _ => simp [evBytes]

theorem feeds_noErrors {skip : Ev} {k : Nat} {es es' : List Ev} {bs : List Byte} (h : Feeds skip k es bs es') (hn : NoErrors es) : NoErrors es' := by
  induction h with
  | done => exact hn
  | skip _ _ ih => exact ih fun e he => hn e (List.mem_cons_of_mem _ he)
  | whole c _ _ ih => exact ih fun e he => hn e (List.mem_cons_of_mem _ he)
  | part c d es _ _ =>
    intro e he
    rcases List.mem_cons.mp he with rfl | he
    · exact ⟨_, rfl⟩
    · exact hn e (List.mem_cons_of_mem _ he)

theorem noErrors_append_right {a b : List Ev} (h : NoErrors (a ++ b)) : NoErrors b := fun e he => h e (List.mem_append_right _ he)

theorem wire_ne_nil (t : Spec.Telegram) : t.wire ≠ [] := by cases t <;> simp [Telegram.wire]

theorem noTelegram_nil : NoTelegram [] := fun t _ h => wire_ne_nil t (by simpa using h)

theorem hopeless_ne_nil {bs : List Byte} (h : Hopeless bs) : bs ≠ [] := by
  rintro rfl
  exact h .ack (by trivial) (List.nil_prefix)

/-- one reception: the report, if any, is what the descriptor delivered, a telegram or no telegram; without report and without failing reads
nothing was lost on the serial line -/
theorem recv_report (k : Kind) (tty : Bool) (es : List Ev) (f : Frame) :
    ∃ out, kindRecv k tty es f = .ok out ∧
      (∀ bs, out.event = some bs → evBytes es = bs ++ evBytes out.rest ∧ bs ≠ [] ∧ ((∃ t : Spec.Telegram, t.Legal ∧ bs = t.wire) ∨ NoTelegram bs)) ∧
      (out.event = none → ∃ lost, evBytes es = lost ++ evBytes out.rest ∧ NoTelegram lost ∧ (k = .serial → NoErrors es → lost = [])) ∧
      (NoErrors es → NoErrors out.rest) := by
  cases k with
  | tcp =>
    obtain ⟨out, bs, k, es1, h1, h2, h3⟩ := C40_tcp_recv_outcome es f
    have hb := feeds_bytes rfl h2
    refine ⟨out, h1, ?_⟩
    rcases h3 with ⟨_, a, b, t, c, d, _⟩ | ⟨_, a, b, c, d⟩ | ⟨b, c, j, h⟩
    · refine ⟨fun x hx => ?_, fun hx => (by rw [b] at hx; cases hx), fun hn => a ▸ feeds_noErrors h2 hn⟩
      rw [b] at hx; cases hx
      exact ⟨by rw [a, hb], d ▸ wire_ne_nil t, .inl ⟨t, c, d⟩⟩
    · refine ⟨fun x hx => ?_, fun hx => (by rw [b] at hx; cases hx), fun hn => a ▸ feeds_noErrors h2 hn⟩
      rw [b] at hx; cases hx
      exact ⟨by rw [a, hb], hopeless_ne_nil c, .inr d⟩
    · refine ⟨fun x hx => (by rw [b] at hx; cases hx), fun _ => ⟨bs, ?_, c, fun h => by cases h⟩, fun hn => ?_⟩
      · rw [hb]
        rcases h with ⟨_, e1, e2⟩ | ⟨_, e1⟩ | ⟨_, e1⟩ | ⟨_, e1⟩
        · rw [e1, e2, evBytes_replicate _ _ rfl]; rfl
        all_goals rw [e1, evBytes_append, evBytes_replicate _ _ rfl]; rfl
      · have h4 := feeds_noErrors h2 hn
        rcases h with ⟨_, e1, e2⟩ | ⟨_, e1⟩ | ⟨_, e1⟩ | ⟨_, e1⟩
        · rw [e2]; intro e he; cases he
        all_goals
          rw [e1] at h4
          exact fun e he => noErrors_append_right h4 e (List.mem_cons_of_mem _ he)
  | serial =>
    cases tty with
    | false => exact ⟨_, rfl, fun _ h => (by cases h), fun _ => ⟨[], rfl, noTelegram_nil, fun _ _ => rfl⟩, id⟩
    | true =>
      obtain ⟨out, bs, k, es1, h1, h2, h3⟩ := C41_serial_recv_outcome es f
      have hb := feeds_bytes rfl h2
      refine ⟨out, h1, ?_⟩
      rcases h3 with ⟨_, _, a, b, t, c, d, _⟩ | ⟨_, _, a, b, c, d⟩ | ⟨_, a, b, c, j, h⟩ | ⟨_, a, b, h⟩ | ⟨_, b, c, j, e, _, he, h⟩
      · refine ⟨fun x hx => ?_, fun hx => (by rw [b] at hx; cases hx), fun hn => a ▸ feeds_noErrors h2 hn⟩
        rw [b] at hx; cases hx
        exact ⟨by rw [a, hb], d ▸ wire_ne_nil t, .inl ⟨t, c, d⟩⟩
      · refine ⟨fun x hx => ?_, fun hx => (by rw [b] at hx; cases hx), fun hn => a ▸ feeds_noErrors h2 hn⟩
        rw [b] at hx; cases hx
        exact ⟨by rw [a, hb], hopeless_ne_nil c, .inr d⟩
      · refine ⟨fun x hx => ?_, fun hx => (by rw [b] at hx; cases hx), fun hn => ?_⟩
        · rw [b] at hx; cases hx
          refine ⟨?_, a, .inr c⟩
          rw [hb]
          rcases h with ⟨_, e1⟩ | ⟨_, e1, e2⟩
          · rw [e1, evBytes_append, evBytes_replicate _ _ rfl]; rfl
          · rw [e1, e2, evBytes_replicate _ _ rfl]; rfl
        · have h4 := feeds_noErrors h2 hn
          rcases h with ⟨_, e1⟩ | ⟨_, e1, e2⟩
          · rw [e1] at h4; exact noErrors_append_right h4
          · rw [e2]; intro e he; cases he
      · refine ⟨fun x hx => (by rw [b] at hx; cases hx), fun _ => ⟨[], ?_, noTelegram_nil, fun _ _ => rfl⟩, fun hn => ?_⟩
        · rw [hb, a]
          rcases h with e1 | ⟨e1, e2⟩
          · rw [e1]; rfl
          · rw [e1, e2]
        · have h4 := feeds_noErrors h2 hn
          rcases h with e1 | ⟨e1, e2⟩
          · rw [e1] at h4; exact fun e he => h4 e (List.mem_cons_of_mem _ he)
          · rw [e2]; intro e he; cases he
      · have hno : ¬ NoErrors es := by
          intro hn
          have h4 := feeds_noErrors h2 hn e (by rw [h]; simp)
          obtain ⟨x, rfl⟩ := h4
          simp at he
        refine ⟨fun x hx => (by rw [b] at hx; cases hx), fun _ => ⟨bs, ?_, c, fun _ hn => absurd hn hno⟩, fun hn => absurd hn hno⟩
        rw [hb, h, evBytes_append, evBytes_replicate _ _ rfl]
        rcases he with rfl | rfl | rfl <;> rfl

/-! ### every program -/

/-- what holds between the events of a handle and the traffic of its descriptor, from the bus `b` on -/
def Reported (k : Kind) (env : Env) (b : Bus) (s : Bus × List Event) : Prop :=
  ∃ new, s.1.sent = b.sent ++ new ∧ sendsOf s.2 = takenBy env.wret b.sent new ∧
    (∀ r ∈ recvsOf s.2, r ≠ [] ∧ ((∃ t : Spec.Telegram, t.Legal ∧ r = t.wire) ∨ NoTelegram r)) ∧
    ((recvsOf s.2).flatten ++ evBytes s.1.script).Sublist (evBytes b.script ++ evBytes (arrivals env.respond b.sent new)) ∧
    (k = .serial → NoErrors b.script → (∀ h, NoErrors (env.respond h)) → NoErrors s.1.script ∧
      (recvsOf s.2).flatten ++ evBytes s.1.script = evBytes b.script ++ evBytes (arrivals env.respond b.sent new))

theorem noErrors_append {a b : List Ev} (ha : NoErrors a) (hb : NoErrors b) : NoErrors (a ++ b) := by
  intro e he
  rcases List.mem_append.mp he with h | h
  · exact ha e h
  · exact hb e h

theorem traced_send (k : Kind) (env : Env) (s : Bus × List Event) (f : Frame) (t : Spec.Telegram) (hl : t.Legal) (h : Packs f t) :
    ((IsOpen k env ∧ (tracedLink k env).send s f = .ok (if env.wret s.1.sent t.wire.length = t.wire.length then 0 else -1, fixed f,
        busAfter env s.1 t.wire, s.2 ++ (if env.wret s.1.sent t.wire.length = t.wire.length then [.send t.wire] else []))) ∨
     (tracedLink k env).send s f = .ok (-1, f, s)) := by
  by_cases ho : IsOpen k env
  · left
    refine ⟨ho, ?_⟩
    have last : (sendFrame true env.junk (env.wret s.1.sent) f >>= fun q => match q.2.2 with
        | none => .ok (q.1, q.2.1, s)
        | some bytes =>
          if q.1 = 0 then .ok (q.1, q.2.1, busAfter env s.1 bytes, s.2 ++ [.send bytes]) else .ok (q.1, q.2.1, busAfter env s.1 bytes, s.2)) =
        .ok (if env.wret s.1.sent t.wire.length = t.wire.length then 0 else -1, fixed f,
          busAfter env s.1 t.wire, s.2 ++ (if env.wret s.1.sent t.wire.length = t.wire.length then [.send t.wire] else [])) := by
      rw [sendFrame_packs env.junk (env.wret s.1.sent) f t hl h, ok_bind]
      by_cases hw : env.wret s.1.sent t.wire.length = t.wire.length
      · simp only [if_pos hw, if_true]
      · simp only [if_neg hw]
        simp
    cases k with
    | tcp => exact last
    | serial =>
      rcases ho with ho | ho
      · cases ho
      · show (sendFrame env.tty env.junk (env.wret s.1.sent) f >>= _) = _
        rw [ho]; exact last
  · right
    cases k with
    | tcp => exact absurd (.inl rfl) ho
    | serial =>
      have : env.tty = false := by
        cases ht : env.tty with
        | false => rfl
        | true => exact absurd (.inr ht) ho
      show (sendFrame env.tty env.junk (env.wret s.1.sent) f >>= _) = _
      rw [this]; rfl

theorem traced_keeps (k : Kind) (env : Env) (b : Bus) :
    LinkKeeps (fun _ => True) (tracedLink k env) (fun f => ∃ t : Spec.Telegram, t.Legal ∧ Packs f t) (Reported k env b) := by
  refine ⟨fun s f hi hp => ?_, fun s f hi => ?_⟩
  · obtain ⟨t, hl, hp⟩ := hp
    rcases traced_send k env s f t hl hp with ⟨_, e⟩ | e
    · rw [e]
      refine ⟨?_, .inr rfl⟩
      obtain ⟨new, h1, h2, h3, h4, h5⟩ := hi
      have hr : ∀ l : List Event, recvsOf (l ++ (if env.wret s.1.sent t.wire.length = t.wire.length then [.send t.wire] else [])) = recvsOf l := by
        intro l; rw [recvsOf_append]; split <;> simp [recvsOf]
      refine ⟨new ++ [t.wire], by simp [busAfter, h1], ?_, ?_, ?_, fun hk hn ha => ?_⟩
      · dsimp only
        rw [sendsOf_append, h2, takenBy_append, ← h1]
        split <;> simp [sendsOf]
      · dsimp only; rw [hr]; exact h3
      · dsimp only; rw [hr, arrivals_append, evBytes_append, ← h1]
        show List.Sublist (_ ++ evBytes (s.1.script ++ env.respond (s.1.sent ++ [t.wire]))) _
        rw [evBytes_append, ← List.append_assoc, ← List.append_assoc]
        exact h4.append (List.Sublist.refl _)
      · obtain ⟨h6, h7⟩ := h5 hk hn ha
        refine ⟨noErrors_append h6 (ha _), ?_⟩
        dsimp only; rw [hr, arrivals_append, evBytes_append, ← h1]
        show (_ ++ evBytes (s.1.script ++ env.respond (s.1.sent ++ [t.wire]))) = _
        rw [evBytes_append, ← List.append_assoc, ← List.append_assoc, h7]
    · rw [e]; exact ⟨hi, .inl rfl⟩
  · obtain ⟨out, e1, e2, e3, e4⟩ := recv_report k env.tty s.1.script f
    have hsize : f.dataSize ≤ 252 → out.frame.dataSize ≤ 252 := by
      intro h
      have hr : (busLink k env).recv s.1 f = .ok (out.code, out.frame, { s.1 with script := out.rest }) := by
        show (kindRecv k env.tty s.1.script f >>= _) = _
        rw [e1]; rfl
      exact bus_recv_keeps parseKeeps_size k env s.1 f _ _ _ h hr
    show Meets _ (kindRecv k env.tty s.1.script f >>= _) _
    rw [e1, ok_bind]
    obtain ⟨new, h1, h2, h3, h4, h5⟩ := hi
    cases he : out.event with
    | none =>
      obtain ⟨lost, g1, g2, g3⟩ := e3 he
      refine ⟨⟨new, h1, h2, h3, ?_, fun hk hn ha => ?_⟩, hsize⟩
      · refine List.Sublist.trans ?_ h4
        rw [g1]
        exact (List.Sublist.refl _).append (List.sublist_append_right _ _)
      · obtain ⟨h6, h7⟩ := h5 hk hn ha
        refine ⟨e4 h6, ?_⟩
        rw [← h7, g1, g3 hk h6]; rfl
    | some bs =>
      obtain ⟨g1, g2, g3⟩ := e2 bs he
      have hs : sendsOf (s.2 ++ [.recv bs]) = sendsOf s.2 := by rw [sendsOf_append]; simp [sendsOf]
      have hr : recvsOf (s.2 ++ [.recv bs]) = recvsOf s.2 ++ [bs] := by rw [recvsOf_append]; simp [recvsOf]
      have hb : (recvsOf s.2 ++ [bs]).flatten ++ evBytes out.rest = (recvsOf s.2).flatten ++ evBytes s.1.script := by
        rw [g1]; simp
      refine ⟨⟨new, h1, by dsimp only; rw [hs]; exact h2, ?_, ?_, fun hk hn ha => ?_⟩, hsize⟩
      · dsimp only; rw [hr]
        intro r hr
        rcases List.mem_append.mp hr with h | h
        · exact h3 r h
        · rw [List.mem_singleton.mp h]; exact ⟨g2, g3⟩
      · dsimp only; rw [hr, hb]; exact h4
      · obtain ⟨h6, h7⟩ := h5 hk hn ha
        refine ⟨e4 h6, ?_⟩
        dsimp only; rw [hr, hb]; exact h7

theorem traced_history (k : Kind) (env : Env) (b : Bus) (calls : List Call) (hc : ∀ c ∈ calls, Proper c) : ∀ (h : Settings × Bus × List Event),
    Reported k env b h.2 → Meets (fun _ => True) (runCalls (tracedLink k env) h calls) fun h' => Reported k env b h'.2 := by
  induction calls with
  | nil => intro h hi; exact hi
  | cons c cs ih =>
    intro h hi
    unfold runCalls
    refine (call_keeps (traced_keeps k env b) c (fun _ _ => trivial) (hc c (by simp)) (fun f t h1 h2 _ => ⟨t, h2, h1⟩) h hi).bind fun h' hi' => ?_
    exact ih (fun c hc' => hc c (by simp [hc'])) h' hi'

theorem reported_start (k : Kind) (env : Env) (b : Bus) : Reported k env b (b, []) :=
  ⟨[], by simp, rfl, fun _ h => (by cases h), by simp [recvsOf, arrivals, evBytes], fun _ hn _ => ⟨hn, by simp [recvsOf, arrivals, evBytes]⟩⟩

/-- C100 (transmissions): after any program, the send callback was called exactly once for every byte string the operating system took
completely, with these bytes and in their order. -/
theorem C100_send_events (k : Kind) (env : Env) (calls : List Call) (hc : ∀ c ∈ calls, Proper c) (st st' : Settings) (b b' : Bus) (es : List Event)
    (h : runCalls (tracedLink k env) (st, b, []) calls = .ok (st', b', es)) :
    ∃ new, b'.sent = b.sent ++ new ∧ sendsOf es = takenBy env.wret b.sent new := by
  obtain ⟨new, h1, h2, _⟩ := (traced_history k env b calls hc (st, b, []) (reported_start k env b)).ok h
  exact ⟨new, h1, h2⟩

/-- C100 (transmissions): if the operating system takes everything, the callback saw everything. -/
theorem C100_send_events_all (k : Kind) (env : Env) (calls : List Call) (hc : ∀ c ∈ calls, Proper c) (st st' : Settings) (b b' : Bus) (es : List Event)
    (hw : ∀ h n, env.wret h n = n) (h : runCalls (tracedLink k env) (st, b, []) calls = .ok (st', b', es)) :
    b'.sent = b.sent ++ sendsOf es := by
  obtain ⟨new, h1, h2⟩ := C100_send_events k env calls hc st st' b b' es h
  have : ∀ (new before : List (List Byte)), takenBy env.wret before new = new := by
    intro new
    induction new with
    | nil => intro _; rfl
    | cons x xs ih => intro before; simp [takenBy, hw, ih]
  rw [h1, h2, this]

/-- C100 (receptions), without the completeness that fails (see `C100_recv_events_violation`): everything reported to the receive callback
arrived, in this order, and each report is one whole telegram or bytes that do not start with a telegram; nothing is reported twice. -/
theorem C100_recv_events_partial (k : Kind) (env : Env) (calls : List Call) (hc : ∀ c ∈ calls, Proper c) (st st' : Settings) (b b' : Bus) (es : List Event)
    (h : runCalls (tracedLink k env) (st, b, []) calls = .ok (st', b', es)) :
    ∃ new, b'.sent = b.sent ++ new ∧
      (∀ r ∈ recvsOf es, r ≠ [] ∧ ((∃ t : Spec.Telegram, t.Legal ∧ r = t.wire) ∨ NoTelegram r)) ∧
      ((recvsOf es).flatten ++ evBytes b'.script).Sublist (evBytes b.script ++ evBytes (arrivals env.respond b.sent new)) := by
  obtain ⟨new, h1, _, h3, h4, _⟩ := (traced_history k env b calls hc (st, b, []) (reported_start k env b)).ok h
  exact ⟨new, h1, h3, h4⟩

/-- C100 (receptions): on a serial line whose reads do not fail, the reports together are exactly the bytes that arrived and were read. -/
theorem C100_serial_recv_complete (env : Env) (calls : List Call) (hc : ∀ c ∈ calls, Proper c) (st st' : Settings) (b b' : Bus) (es : List Event)
    (hb : NoErrors b.script) (hr : ∀ h, NoErrors (env.respond h))
    (h : runCalls (tracedLink .serial env) (st, b, []) calls = .ok (st', b', es)) :
    ∃ new, b'.sent = b.sent ++ new ∧
      (recvsOf es).flatten ++ evBytes b'.script = evBytes b.script ++ evBytes (arrivals env.respond b.sent new) := by
  obtain ⟨new, h1, _, _, _, h5⟩ := (traced_history .serial env b calls hc (st, b, []) (reported_start .serial env b)).ok h
  exact ⟨new, h1, (h5 rfl hb hr).2⟩

/-- an open terminal and a socket that take everything written and answer nothing -/
def mute : Env := { respond := fun _ => [], junk := fun _ => 0, wret := fun _ n => n, tty := true }

/-- C100 (receptions): the start of a telegram that is read over TCP before the timeout strikes is consumed but never reported. -/
theorem C100_recv_events_violation : ∃ (b : Bus) (st' : Settings) (b' : Bus) (es : List Event),
    runCalls (tracedLink .tcp mute) (⟨0, 0, 0⟩, b, []) [.recv Frame.zero] = .ok (st', b', es) ∧
      evBytes b.script <+: (Telegram.short 0x40 5).wire ∧ evBytes b.script ≠ [] ∧ b'.script = [] ∧ recvsOf es = [] := by
  have hr : ∃ f', tcpRecv [.data [0x10, 0x40], .eagain] Frame.zero = .ok ⟨RECV_TIMEOUT, f', [], none⟩ := by
    obtain ⟨f1, _, _, h1⟩ := tcp_data (bs := []) (.inl rfl) Frame.zero [0x10, 0x40] (by simp) [.eagain]
    have h1 : tcpRecv [.data [0x10, 0x40], .eagain] Frame.zero = tcpLoop [.data [0x40], .eagain] f1 (rbuf [0x10]) 1 (need [0x10] - 1) := h1
    obtain ⟨f2, _, _, h2⟩ := tcp_data (bs := [0x10]) (.inr (by decide)) f1 [0x40] (by simp) [.eagain]
    have h2 : tcpLoop [.data [0x40], .eagain] f1 (rbuf [0x10]) 1 (need [0x10] - 1) = tcpLoop [.eagain] f2 (rbuf [0x10, 0x40]) 2 (need [0x10, 0x40] - 1) := h2
    have h3 := tcp_eagain (bs := [0x10, 0x40]) (.inr (by decide)) f2 []
    exact ⟨f2, by rw [h1, h2]; exact h3⟩
  obtain ⟨f', hr⟩ := hr
  refine ⟨⟨[.data [0x10, 0x40], .eagain], []⟩, ⟨0, 0, 0⟩, ⟨[], []⟩, [], ?_, by decide, by decide, rfl, rfl⟩
  have hl : (tracedLink .tcp mute).recv (⟨[.data [0x10, 0x40], .eagain], []⟩, []) Frame.zero = .ok (RECV_TIMEOUT, f', ⟨[], []⟩, []) := by
    show (tcpRecv _ _ >>= _) = _
    rw [hr]; rfl
  show (((recvFrame (tracedLink .tcp mute) 0 _ _) >>= _) >>= _) = _
  unfold recvFrame
  rw [hl]
  simp [ok_bind, PURGE_M2S, PURGE_S2M, runCalls]

/-! ### the trace on standard error -/

theorem readNat_pad (n j : Nat) : readNat (List.replicate j 48 ++ decDigits n) = some n := by
  have h0 : ∀ (l : List Byte) (j : Nat), l ≠ [] → readNat (List.replicate j 48 ++ l) = readNat l := by
    intro l j hl
    induction j with
    | zero => rfl
    | succ j ih =>
      rw [← ih]
      unfold readNat
      rw [if_neg (by simp [List.replicate_succ]), if_neg (by simp [hl])]
      rfl
  rw [h0, readNat_decDigits]
  rw [decDigits]; split <;> simp

/-- C100: with the library's dump callbacks every event is one line on standard error that tells time, direction, number of bytes and the bytes. -/
theorem C100_dump_line (stamp : List Byte) (e : Event) : TraceLine stamp e (dumpEvent stamp e) := by
  have hx : ∀ bs : List Byte, (∀ c ∈ bs.flatMap (fun b => cs! " " ++ fmtHex2 b), c = 32 ∨ isXDigit c) ∧
      HexText (bs.flatMap (fun b => cs! " " ++ fmtHex2 b)) bs := by
    intro bs
    induction bs with
    | nil => exact ⟨by simp, .nil⟩
    | cons b bs ih =>
      obtain ⟨h1, h2, h3⟩ := hexVal_fmt b
      refine ⟨?_, ?_⟩
      · intro c hc
        rw [List.flatMap_cons, List.mem_append] at hc
        rcases hc with hc | hc
        · simp only [List.mem_append, fmtHex2, List.mem_cons, List.not_mem_nil, or_false] at hc
          rcases hc with hc | rfl | rfl
          · exact .inl (by simpa [cstr] using hc)
          · exact .inr h1
          · exact .inr h2
        · exact ih.1 c hc
      · refine .space (by decide) ?_
        have := HexText.byte h1 h2 ih.2
        rw [h3] at this
        exact this
  have hp : ∀ n, 3 ≤ (padZero 3 (decDigits n)).length := by intro n; simp [padZero]; omega
  cases e with
  | send bs => exact ⟨_, bs, _, _, .inl ⟨rfl, rfl⟩, rfl, hp _, readNat_pad _ _, (hx bs).1, (hx bs).2⟩
  | recv bs => exact ⟨_, bs, _, _, .inr ⟨rfl, rfl⟩, rfl, hp _, readNat_pad _ _, (hx bs).1, (hx bs).2⟩

theorem split_first {c : Byte} : ∀ {l1 l2 r1 r2 : List Byte}, c ∉ l1 → c ∉ l2 → l1 ++ c :: r1 = l2 ++ c :: r2 → l1 = l2 ∧ r1 = r2 := by
  intro l1
  induction l1 with
  | nil =>
    intro l2 r1 r2 _ h2 h
    cases l2 with
    | nil => simp at h; exact ⟨rfl, h⟩
    | cons y l2 => simp at h h2; exact absurd h.1 h2.1
  | cons x l1 ih =>
    intro l2 r1 r2 h1 h2 h
    cases l2 with
    | nil => simp at h h1; exact absurd h.1.symm h1.1
    | cons y l2 =>
      simp only [List.cons_append, List.cons.injEq] at h
      obtain ⟨e1, e2⟩ := ih (fun hc => h1 (by simp [hc])) (fun hc => h2 (by simp [hc])) h.2
      exact ⟨by rw [h.1, e1], e2⟩

theorem upperHex_inj {a b : Byte} (h : fmtHex2 a = fmtHex2 b) : a = b := by
  unfold fmtHex2 at h
  simp only [List.cons.injEq, and_true] at h
  rw [← (hexVal_fmt a).2.2, ← (hexVal_fmt b).2.2, h.1, h.2]

theorem hexes_inj : ∀ {a b : List Byte}, (a.flatMap fun x => cs! " " ++ fmtHex2 x) = (b.flatMap fun x => cs! " " ++ fmtHex2 x) → a = b := by
  intro a
  induction a with
  | nil => intro b h; cases b with
    | nil => rfl
    | cons y b => simp [fmtHex2] at h
  | cons x a ih =>
    intro b h
    cases b with
    | nil => simp [fmtHex2] at h
    | cons y b =>
      rw [List.flatMap_cons, List.flatMap_cons] at h
      obtain ⟨h1, h2⟩ := List.append_inj h (by simp [fmtHex2])
      rw [ih h2, upperHex_inj (List.append_cancel_left h1)]

theorem hexes_plain (bs : List Byte) : ∀ c ∈ (bs.flatMap fun x => cs! " " ++ fmtHex2 x), c ≠ 10 := by
  have key : ∀ b : Byte, ∀ c ∈ cs! " " ++ fmtHex2 b, c ≠ 10 := forall_byte (by decide +kernel)
  intro c hc
  obtain ⟨b, _, hb⟩ := List.mem_flatMap.mp hc
  exact key b c hb

/-- the label in a trace line -/
def Event.word : Event → List Byte
  | .send _ => cs! "SEND"
  | .recv _ => cs! "RECV"
def Event.content : Event → List Byte
  | .send bs => bs
  | .recv bs => bs

/-- a trace line without its end -/
def bodyLine (stamp : List Byte) (e : Event) : List Byte :=
  cs! "[" ++ (stamp ++ (cs! "] " ++ (e.word ++ (cs! " (" ++ (padZero 3 (decDigits e.content.length) ++ 41 :: (cs! ":" ++
    e.content.flatMap (fun b => cs! " " ++ fmtHex2 b)))))))

theorem dumpEvent_body (stamp : List Byte) (e : Event) : dumpEvent stamp e = bodyLine stamp e ++ [10] := by
  cases e <;> simp only [dumpEvent, hexDumpLine, bodyLine, Event.word, Event.content, List.append_assoc, List.cons_append] <;> rfl

theorem pad_digit (n : Nat) : ∀ c ∈ padZero 3 (decDigits n), 48 ≤ c.toNat ∧ c.toNat ≤ 57 := by
  intro c hc
  rcases List.mem_append.mp hc with h | h
  · rw [(List.mem_replicate.mp h).2]; decide
  · exact decDigits_digit n c h

theorem bodyLine_plain (stamp : List Byte) (e : Event) (h : (10 : Byte) ∉ stamp) : (10 : Byte) ∉ bodyLine stamp e := by
  have h1 : (10 : Byte) ∉ e.word := by cases e <;> (simp only [Event.word]; decide)
  have h2 : (10 : Byte) ∉ padZero 3 (decDigits e.content.length) := by
    intro hc; have := pad_digit _ _ hc; simp at this
  have h3 : (10 : Byte) ∉ e.content.flatMap (fun b => cs! " " ++ fmtHex2 b) := fun hc => hexes_plain _ _ hc rfl
  simp only [bodyLine, List.mem_append, List.mem_cons]
  rintro (hc | hc | hc | hc | hc | hc | hc | hc | hc)
  · exact absurd hc (by decide)
  · exact h hc
  · exact absurd hc (by decide)
  · exact h1 hc
  · exact absurd hc (by decide)
  · exact h2 hc
  · exact absurd hc (by decide)
  · exact absurd hc (by decide)
  · exact h3 hc

theorem bodyLine_inj {s1 s2 : List Byte} {e1 e2 : Event} (hs : s1.length = s2.length) (h : bodyLine s1 e1 = bodyLine s2 e2) : s1 = s2 ∧ e1 = e2 := by
  unfold bodyLine at h
  obtain ⟨h0, h1⟩ := List.append_inj (List.append_cancel_left h) hs
  have h2 := List.append_cancel_left h1
  have hw : e1.word.length = e2.word.length := by cases e1 <;> cases e2 <;> rfl
  obtain ⟨hw, h3⟩ := List.append_inj h2 hw
  have h4 := List.append_cancel_left h3
  have hd : ∀ n, (41 : Byte) ∉ padZero 3 (decDigits n) := by
    intro n hc; have := pad_digit _ _ hc; simp at this
  obtain ⟨_, h5⟩ := split_first (hd _) (hd _) h4
  have hc := hexes_inj (List.append_cancel_left h5)
  refine ⟨h0, ?_⟩
  cases e1 <;> cases e2
  · exact congrArg _ hc
  · exact absurd (show cs! "SEND" = cs! "RECV" from hw) (by decide)
  · exact absurd (show cs! "RECV" = cs! "SEND" from hw) (by decide)
  · exact congrArg _ hc

/-- C100: the trace on standard error determines the events, their order and their time stamps (of 20 characters, as `strftime` makes them until
the year 9999). -/
theorem C100_dump_readable (es1 es2 : List (List Byte × Event)) (h1 : ∀ p ∈ es1, p.1.length = 20 ∧ (10 : Byte) ∉ p.1)
    (h2 : ∀ p ∈ es2, p.1.length = 20 ∧ (10 : Byte) ∉ p.1) (h : dumpAll es1 = dumpAll es2) : es1 = es2 := by
  induction es1 generalizing es2 with
  | nil => cases es2 with
    | nil => rfl
    | cons q es2 =>
      rw [show dumpAll (q :: es2) = dumpEvent q.1 q.2 ++ dumpAll es2 from rfl, dumpEvent_body] at h
      simp [dumpAll] at h
  | cons p es1 ih =>
    cases es2 with
    | nil =>
      rw [show dumpAll (p :: es1) = dumpEvent p.1 p.2 ++ dumpAll es1 from rfl, dumpEvent_body] at h
      simp [dumpAll] at h
    | cons q es2 =>
      rw [show dumpAll (p :: es1) = dumpEvent p.1 p.2 ++ dumpAll es1 from rfl, show dumpAll (q :: es2) = dumpEvent q.1 q.2 ++ dumpAll es2 from rfl,
        dumpEvent_body, dumpEvent_body, List.append_assoc, List.append_assoc] at h
      have hp := h1 p (by simp)
      have hq := h2 q (by simp)
      obtain ⟨e1, e2⟩ := split_first (bodyLine_plain _ _ hp.2) (bodyLine_plain _ _ hq.2) h
      obtain ⟨e3, e4⟩ := bodyLine_inj (by rw [hp.1, hq.1]) e1
      rw [ih es2 (fun x hx => h1 x (by simp [hx])) (fun x hx => h2 x (by simp [hx])) e2, Prod.ext e3 e4]

example : dumpAll [(cs! "2024-05-01 12:00:00Z", .send [0x10, 0x5B, 5, 0x60, 0x16]), (cs! "2024-05-01 12:00:01Z", .recv [0xE5])] =
    cs! "[2024-05-01 12:00:00Z] SEND (005): 10 5B 05 60 16\n[2024-05-01 12:00:01Z] RECV (001): E5\n" := by decide +kernel

/-! Direct instances of the theorems above: a program of eight calls, whatever happens on the bus. -/

example (k : Kind) (env : Env) (st st' : Settings) (b b' : Bus) (es : List Event) (h : runCalls (tracedLink k env) (st, b, []) someProgram = .ok (st', b', es)) :=
  C100_send_events k env someProgram someProgram_proper st st' b b' es h
example (k : Kind) (env : Env) (st st' : Settings) (b b' : Bus) (es : List Event) (h : runCalls (tracedLink k env) (st, b, []) someProgram = .ok (st', b', es)) :=
  C100_recv_events_partial k env someProgram someProgram_proper st st' b b' es h
example (k : Kind) (st st' : Settings) (b b' : Bus) (es : List Event) (h : runCalls (tracedLink k mute) (st, b, []) someProgram = .ok (st', b', es)) :=
  C100_send_events_all k mute someProgram someProgram_proper st st' b b' es (fun _ _ => rfl) h
example (st st' : Settings) (b' : Bus) (es : List Event) (h : runCalls (tracedLink .serial mute) (st, ⟨[.data [1, 2]], []⟩, []) someProgram = .ok (st', b', es)) :=
  C100_serial_recv_complete mute someProgram someProgram_proper st st' ⟨[.data [1, 2]], []⟩ b' es (by simp [NoErrors]) (by simp [NoErrors, mute]) h

end Mbus
