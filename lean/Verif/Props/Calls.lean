import Verif.Lemmas.Calls
import Verif.Props.Select
/-
Property theorems C99: what any program puts on the bus.  A program is any sequence of calls with proper arguments, on a handle of
either kind and a bus with arbitrary behaviour.
-/
namespace Mbus
open Spec

/-! ### C99 -/

theorem bus_keeps {E : Fault → Prop} (k : Kind) (env : Env) (T : Spec.Telegram → Prop) (b : Bus) :
    LinkKeeps E (busLink k env) (fun f => ∃ t, t.Legal ∧ T t ∧ Packs f t)
      (fun b' => ∃ ts : List Spec.Telegram, (∀ t ∈ ts, t.Legal ∧ T t) ∧ b'.sent = b.sent ++ ts.map Telegram.wire) := by
  refine ⟨fun s f hi hp => ?_, fun s f hi => ?_⟩
  · obtain ⟨t, h1, h2, h3⟩ := hp
    obtain ⟨ts, hts, hs⟩ := hi
    by_cases ho : IsOpen k env
    · rw [bus_send k env ho s f t h1 h3]
      refine ⟨⟨ts ++ [t], ?_, ?_⟩, .inr rfl⟩
      · intro u hu
        rcases List.mem_append.mp hu with hu | hu
        · exact hts u hu
        · rw [List.mem_singleton.mp hu]; exact ⟨h1, h2⟩
      · show s.sent ++ [t.wire] = _
        rw [hs]; simp
    · cases k with
      | tcp => exact absurd (.inl rfl) ho
      | serial =>
        have : env.tty = false := by
          cases ht : env.tty with
          | false => rfl
          | true => exact absurd (.inr ht) ho
        rw [bus_send_closed env this]
        exact ⟨⟨ts, hts, hs⟩, .inl rfl⟩
  · obtain ⟨out, h1, _⟩ := kindRecv_weight k env.tty s.script f
    have hr : (busLink k env).recv s f = .ok (out.code, out.frame, { s with script := out.rest }) := by
      show (kindRecv k env.tty s.script f >>= _) = _
      rw [h1]; rfl
    have hk := fun h => bus_recv_keeps parseKeeps_size k env s f _ _ _ h hr
    rw [hr]
    exact ⟨hi, hk⟩

/-- C99: whatever a program does and whatever the bus answers, everything transmitted is a legal telegram that one of its calls may send, in
the order of the calls; the options of the handle stay legal; and undefined behaviour is limited to the one its calls may have. -/
theorem C99_history (k : Kind) (env : Env) (calls : List Call) (hc : ∀ c ∈ calls, Proper c) (st : Settings) (b : Bus) :
    (∀ st' b', runCalls (busLink k env) (st, b) calls = .ok (st', b') →
      (∃ tss : List (List Spec.Telegram), Pointwise (fun c ts => ∀ t ∈ ts, t.Legal ∧ Sends c t) calls tss ∧
        b'.sent = b.sent ++ tss.flatten.map Telegram.wire) ∧ (SettingsOk st → SettingsOk st')) ∧
    (∀ e, runCalls (busLink k env) (st, b) calls = .error e → ∃ c ∈ calls, MayFault c e) := by
  induction calls generalizing st b with
  | nil =>
    refine ⟨fun st' b' h => ?_, fun e h => (by cases h)⟩
    cases h
    exact ⟨⟨[], .nil, by simp⟩, id⟩
  | cons c cs ih =>
    have hcall := call_keeps (bus_keeps (E := MayFault c) k env (Sends c) b) c (fun _ h => h) (hc c (by simp))
      (fun f t h1 h2 h3 => ⟨t, h2, h3, h1⟩) (st, b) ⟨[], by simp, by simp⟩
    have hopt : ∀ h' : Settings × Bus, c.run (busLink k env) (st, b) = .ok h' → SettingsOk st → SettingsOk h'.1 := by
      intro h' hr hs
      cases c
      case option w v =>
        cases hr
        exact setOption_ok st w v hs
      all_goals
        unfold Call.run at hr
        simp only [bind_eq_ok] at hr
        obtain ⟨_, _, hr⟩ := hr
        cases hr
        exact hs
    unfold runCalls
    cases hr : c.run (busLink k env) (st, b) with
    | error e =>
      refine ⟨fun st' b' h => (by cases h), fun e' h => ?_⟩
      cases h
      exact ⟨c, by simp, hcall.error hr⟩
    | ok h' =>
      obtain ⟨st1, b1⟩ := h'
      obtain ⟨ts, h1, h2⟩ := hcall.ok hr
      obtain ⟨i1, i2⟩ := ih (fun c hc' => hc c (by simp [hc'])) st1 b1
      rw [ok_bind]
      refine ⟨fun st' b' h => ?_, fun e h => ?_⟩
      · obtain ⟨⟨tss, j1, j2⟩, j3⟩ := i1 st' b' h
        refine ⟨⟨ts :: tss, .cons h1 j1, ?_⟩, fun hs => j3 (hopt _ hr hs)⟩
        rw [j2, h2]
        simp
      · obtain ⟨c', j1, j2⟩ := i2 e h
        exact ⟨c', by simp [j1], j2⟩

/-- C99: a program that neither probes, scans nor makes multi-telegram requests has no undefined behaviour at all. -/
theorem C99_history_safe (k : Kind) (env : Env) (calls : List Call) (hc : ∀ c ∈ calls, Proper c) (hq : ∀ c ∈ calls, ∀ e, ¬ MayFault c e)
    (st : Settings) (b : Bus) : ∃ h', runCalls (busLink k env) (st, b) calls = .ok h' := by
  cases h : runCalls (busLink k env) (st, b) calls with
  | ok h' => exact ⟨h', rfl⟩
  | error e =>
    obtain ⟨c, h1, h2⟩ := (C99_history k env calls hc st b).2 e h
    exact absurd h2 (hq c h1 e)

theorem pointwise_mem {calls : List Call} {tss : List (List Spec.Telegram)}
    (h : Pointwise (fun c ts => ∀ t ∈ ts, Spec.Telegram.Legal t ∧ Sends c t) calls tss) {ts : List Spec.Telegram} {t : Spec.Telegram} (hts : ts ∈ tss) (ht : t ∈ ts) :
    ∃ c ∈ calls, t.Legal ∧ Sends c t := by
  induction h with
  | nil => cases hts
  | @cons c us cs uss a _ ih =>
    rcases List.mem_cons.mp hts with e | e
    · subst e; exact ⟨c, by simp, a t ht⟩
    · obtain ⟨c', i1, i2⟩ := ih e
      exact ⟨c', by simp [i1], i2⟩

/-- C99: every byte string a program transmitted is accepted by `mbus_parse` on the other side and delivers a telegram that one of the calls
may send. -/
theorem C99_accepted (k : Kind) (env : Env) (calls : List Call) (hc : ∀ c ∈ calls, Proper c) (st st' : Settings) (script : List Ev) (b' : Bus)
    (h : runCalls (busLink k env) (st, ⟨script, []⟩) calls = .ok (st', b')) :
    ∀ bs ∈ b'.sent, ∀ g, ∃ g' t c, mbusParse g bs bs.length = .ok (0, g') ∧ Carries g' t ∧ c ∈ calls ∧ Sends c t := by
  obtain ⟨⟨tss, h1, h2⟩, _⟩ := (C99_history k env calls hc st ⟨script, []⟩).1 st' b' h
  intro bs hbs g
  rw [h2] at hbs
  simp only [List.nil_append, List.mem_map, List.mem_flatten] at hbs
  obtain ⟨t, ⟨ts, hts, ht⟩, rfl⟩ := hbs
  obtain ⟨c, hcm, hl, hs⟩ := pointwise_mem h1 hts ht
  obtain ⟨_, _, g', e, _, h4, h5⟩ := C54_receiver_accepts env ⟨[], []⟩ t (.ok (_, ⟨[], [t.wire]⟩)) ⟨if env.wret [] t.wire.length = t.wire.length then 0 else -1, _, rfl, hl, rfl,
    by by_cases hw : env.wret [] t.wire.length = t.wire.length <;> simp [hw]⟩ g
  exact ⟨g', t, c, h4, h5, hcm, hs⟩

theorem sends_master (c : Call) (hc : ∀ f, c ≠ .send f) (t : Spec.Telegram) (h : Sends c t) : MasterT t := by
  have hsel : ∀ m, Selects m t → MasterT t := by
    intro m h
    cases t with
    | ack => exact h.elim
    | short c a => exact h.elim
    | data c a ci p =>
      have h1 : c = 0x73 := h.1
      show c &&& 0x40 ≠ 0
      rw [h1]; decide
  cases c with
  | send f => exact absurd rfl (hc f)
  | recv f => exact h.elim
  | purge => exact h.elim
  | option _ _ => exact h.elim
  | request a => obtain ⟨n, _, rfl⟩ := h; trivial
  | ping a _ => obtain ⟨n, _, rfl⟩ := h; trivial
  | baud a r => obtain ⟨n, ci, _, _, rfl⟩ := h; show (0x53 : Byte) &&& 0x40 ≠ 0; decide
  | reset a c =>
    obtain ⟨n, _, ⟨_, rfl⟩ | ⟨m, _, rfl⟩⟩ := h <;> (show (0x53 : Byte) &&& 0x40 ≠ 0; decide)
  | userData a d n => obtain ⟨n, _, _, _, rfl⟩ := h; show (0x53 : Byte) &&& 0x40 ≠ 0; decide
  | setAddress a b => obtain ⟨n, m, _, _, _, rfl⟩ := h; show (0x53 : Byte) &&& 0x40 ≠ 0; decide
  | sendSelect m => exact hsel m h
  | select m => exact hsel m h
  | probe m => rcases h with h | rfl; exact hsel m h; trivial
  | scan p m => rcases h with ⟨m, h⟩ | rfl; exact hsel m h; trivial
  | readSlave a f =>
    cases a with
    | primary a => obtain ⟨n, _, rfl⟩ := h; trivial
    | secondary m => rcases h with h | rfl; exact hsel m h; trivial
  | sendrecv a f n => obtain ⟨n, _, rfl | rfl⟩ := h <;> trivial

/-- C99: a program that does not pass frames to `mbus_send_frame` itself transmits telegrams of a master only. -/
theorem C99_master (k : Kind) (env : Env) (calls : List Call) (hc : ∀ c ∈ calls, Proper c) (hm : ∀ c ∈ calls, ∀ f, c ≠ .send f)
    (st st' : Settings) (script : List Ev) (b' : Bus) (h : runCalls (busLink k env) (st, ⟨script, []⟩) calls = .ok (st', b')) :
    ∀ bs ∈ b'.sent, ∃ t : Spec.Telegram, t.Legal ∧ MasterT t ∧ bs = t.wire := by
  obtain ⟨⟨tss, h1, h2⟩, _⟩ := (C99_history k env calls hc st ⟨script, []⟩).1 st' b' h
  intro bs hbs
  rw [h2] at hbs
  simp only [List.nil_append, List.mem_map, List.mem_flatten] at hbs
  obtain ⟨t, ⟨ts, hts, ht⟩, rfl⟩ := hbs
  obtain ⟨c, hcm, hl, hs⟩ := pointwise_mem h1 hts ht
  exact ⟨t, hl, sends_master c (hm c hcm) t hs, rfl⟩

/-- a program: reset the link of meter 5, allow two retries, scan, select a meter and read it -/
def someProgram : List Call :=
  [.ping 5 true, .option 0 2, .scan 0 (List.replicate 16 70), .select (List.replicate 8 49 ++ List.replicate 8 70), .sendrecv 0xFD Frame.zero 16,
   .userData 5 [1, 2, 3] 3, .recv Frame.zero, .purge]

example : (∀ c ∈ someProgram, Proper c) ∧ ∀ c ∈ someProgram, ∀ f, c ≠ .send f := by
  unfold someProgram
  constructor
  · intro c hc
    simp only [List.mem_cons, List.not_mem_nil, or_false] at hc
    rcases hc with rfl | rfl | rfl | rfl | rfl | rfl | rfl | rfl <;> simp [Proper, Frame.zero]
  · intro c hc f
    simp only [List.mem_cons, List.not_mem_nil, or_false] at hc
    rcases hc with rfl | rfl | rfl | rfl | rfl | rfl | rfl | rfl <;> simp

/-! Direct instances of the theorems above. -/

theorem someProgram_proper : ∀ c ∈ someProgram, Proper c := by
  intro c hc
  simp only [someProgram, List.mem_cons, List.not_mem_nil, or_false] at hc
  rcases hc with rfl | rfl | rfl | rfl | rfl | rfl | rfl | rfl <;> simp [Proper, Frame.zero]
example (k : Kind) (env : Env) (st : Settings) (b : Bus) := C99_history k env someProgram someProgram_proper st b
example (k : Kind) (env : Env) (st st' : Settings) (script : List Ev) (b' : Bus)
    (h : runCalls (busLink k env) (st, ⟨script, []⟩) someProgram = .ok (st', b')) := C99_accepted k env someProgram someProgram_proper st st' script b' h

end Mbus
