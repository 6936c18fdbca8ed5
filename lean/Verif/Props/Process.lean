import Verif.Spec.Process
import Verif.Lemmas.DiagQuote
import Verif.Props.DiagBus
import Verif.Props.Calls
/-
Property theorems C124: several handles in one process.
-/
namespace Mbus
open Spec

/-- `Call.exec` is `Call.run` with the results kept -/
theorem exec_run {σ : Type} (l : Link σ) (h : Settings × σ) (c : Call) : c.run l h = (c.exec l h).map Prod.snd := by
  unfold Call.run Call.exec
  cases c <;> dsimp only
  case option => rfl
  all_goals
    rw [bind_map]
    rfl

/-- the diagnostics and the text in `error_str` do not matter to a call -/
theorem talk_exec (k : Kind) (env : Env) (st : Settings) (b : Bus) (t : List Byte) (c : Call) :
    c.exec (busLink k env) (st, b) = (c.talk k env st (b, t)).map fun q => (q.1, q.2.1, q.2.2.1.1) := by
  have ka := talk_ops k env st.purgeFirst
  have ks := ka.toSimulates
  have kb := talk_blind k env st.purgeFirst
  unfold Call.exec Call.talk
  cases c <;> dsimp only <;> try (rw [bind_map])
  · rw [ks.send (b, t), map_bind]; rfl
  · rw [ks.recv (b, t), map_bind]; rfl
  · rw [ks.purge (b, t), map_bind]; rfl
  · rw [sendRequestD_mute ks (b, t), map_bind]; rfl
  · rw [sendPingD_mute ks (b, t), map_bind]; rfl
  · rw [sendBaudD_mute ks (b, t), map_bind]; rfl
  · rw [sendAppResetD_mute ks (b, t), map_bind]; rfl
  · rw [sendUserDataD_mute ks (b, t), map_bind]; rfl
  · rw [setPrimaryAddressD_mute ks (b, t), map_bind]; rfl
  · rw [sendSelectD_mute ks kb (b, t), map_bind]; rfl
  · rw [selectSecondaryD_mute ks kb (b, t), map_bind]; rfl
  · rw [probeSecondaryD_mute ka kb st (b, t), map_bind]; rfl
  · rw [scanRangeD_mute ka kb st (b, t), map_bind]; rfl
  · rw [readSlaveD_mute ks kb (b, t), map_bind]; rfl
  · rw [sendrecvRequestD_mute ks kb st (b, t), map_bind]; rfl
  · rfl

theorem own_cons_self {α : Type} (i : Nat) (x : α) (l : List (Nat × α)) : own i ((i, x) :: l) = x :: own i l := by simp [own]
theorem own_cons_other {α : Type} {i j : Nat} (h : j ≠ i) (x : α) (l : List (Nat × α)) : own i ((j, x) :: l) = own i l := by simp [own, h]

/-! ### C124 -/

/-- C124: in a process with any number of handles, every handle behaves as if the process had only this one.  Whatever the order of the calls
and whatever was in `error_str`: the results of the calls on handle `i`, its options and what was transmitted and received on its bus are those
of making just these calls on it. -/
theorem C124_independent (kind : Nat → Kind) (env : Nat → Env) (sched : List (Nat × Call)) (p p' : Many) (outs : List (Nat × Outcome))
    (notes : List (Nat × Note)) (h : p.run kind env sched = .ok (outs, p', notes)) (i : Nat) :
    alone (busLink (kind i) (env i)) (p.handle i) (own i sched) = .ok (own i outs, p'.handle i) := by
  induction sched generalizing p outs notes with
  | nil => cases h; rfl
  | cons q sched ih =>
    obtain ⟨j, c⟩ := q
    unfold Many.run at h
    obtain ⟨⟨out, p1, n⟩, h1, h⟩ := bind_eq_ok.mp h
    obtain ⟨⟨outs1, p2, ns⟩, h2, h⟩ := bind_eq_ok.mp h
    cases h
    unfold Many.step at h1
    obtain ⟨⟨out', st, s, n'⟩, h3, h1⟩ := bind_eq_ok.mp h1
    cases h1
    have ih := ih _ _ _ h2
    by_cases hj : j = i
    · subst hj
      rw [own_cons_self, own_cons_self]
      have h4 := talk_exec (kind j) (env j) (p.handle j).1 (p.handle j).2 p.err c
      rw [h3] at h4
      unfold alone
      rw [show (p.handle j) = ((p.handle j).1, (p.handle j).2) from rfl, h4]
      simp only [if_true] at ih
      show (alone _ (st, s.1) _ >>= _) = _
      rw [ih]
      rfl
    · rw [own_cons_other hj, own_cons_other hj]
      simp only [if_neg (fun h : i = j => hj h.symm)] at ih
      exact ih

/-- C124: ... and no handle can make the process fail that would not fail alone: if the calls on each handle, made alone, are free of undefined
behaviour, then so is every schedule of them. -/
theorem C124_defined (kind : Nat → Kind) (env : Nat → Env) (sched : List (Nat × Call)) (p : Many)
    (h : ∀ i, ∃ r, alone (busLink (kind i) (env i)) (p.handle i) (own i sched) = .ok r) : ∃ r, p.run kind env sched = .ok r := by
  induction sched generalizing p with
  | nil => exact ⟨_, rfl⟩
  | cons q sched ih =>
    obtain ⟨j, c⟩ := q
    obtain ⟨r, hj⟩ := h j
    rw [own_cons_self] at hj
    unfold alone at hj
    obtain ⟨⟨out, h1⟩, h2, hj⟩ := bind_eq_ok.mp hj
    obtain ⟨⟨outs, h3⟩, h4, hj⟩ := bind_eq_ok.mp hj
    have h5 := talk_exec (kind j) (env j) (p.handle j).1 (p.handle j).2 p.err c
    rw [show ((p.handle j).1, (p.handle j).2) = p.handle j from rfl, h2] at h5
    cases h6 : c.talk (kind j) (env j) (p.handle j).1 ((p.handle j).2, p.err) with
    | error e => rw [h6] at h5; cases h5
    | ok q =>
      obtain ⟨out', st, s, n⟩ := q
      rw [h6] at h5
      cases h5
      have hx : ∀ i, ∃ r, alone (busLink (kind i) (env i)) (if i = j then (st, s.1) else p.handle i) (own i sched) = .ok r := by
        intro i
        by_cases hi : i = j
        · subst hi
          rw [if_pos rfl]
          exact ⟨_, h4⟩
        · rw [if_neg hi]
          obtain ⟨r, hr⟩ := h i
          rw [own_cons_other (fun h => hi h.symm)] at hr
          exact ⟨r, hr⟩
      obtain ⟨r, hr⟩ := ih ⟨s.2, fun i => if i = j then (st, s.1) else p.handle i⟩ hx
      unfold Many.run Many.step
      rw [h6]
      simp only [ok_bind]
      rw [hr]
      exact ⟨_, rfl⟩

/-- C124: what a handle transmits in a process is what the calls on it are documented to send (C99), in the order of the calls. -/
theorem C124_transmits (kind : Nat → Kind) (env : Nat → Env) (sched : List (Nat × Call)) (p p' : Many) (outs : List (Nat × Outcome))
    (notes : List (Nat × Note)) (h : p.run kind env sched = .ok (outs, p', notes)) (i : Nat) :
    runCalls (busLink (kind i) (env i)) (p.handle i) (own i sched) = .ok (p'.handle i) := by
  have h1 := C124_independent kind env sched p p' outs notes h i
  generalize p.handle i = s at h1 ⊢
  generalize own i sched = cs at h1 ⊢
  generalize own i outs = os at h1
  induction cs generalizing s os with
  | nil => cases h1; rfl
  | cons c cs ih =>
    unfold alone at h1
    obtain ⟨⟨out, s1⟩, h2, h1⟩ := bind_eq_ok.mp h1
    obtain ⟨⟨outs1, s2⟩, h3, h1⟩ := bind_eq_ok.mp h1
    cases h1
    unfold runCalls
    rw [exec_run, h2]
    exact ih _ _ h3

/-- C124: the order of calls on different handles does not matter: two schedules with the same calls on each handle (in the same order) give
the same results and leave every handle and its bus in the same state, and either both are free of undefined behaviour or neither. -/
theorem C124_order (kind : Nat → Kind) (env : Nat → Env) (a b : List (Nat × Call)) (hab : ∀ i, own i a = own i b) (p q : Many)
    (hpq : p.handle = q.handle) (outs : List (Nat × Outcome)) (p' : Many) (notes : List (Nat × Note)) (h : p.run kind env a = .ok (outs, p', notes)) :
    ∃ outs' q' notes', q.run kind env b = .ok (outs', q', notes') ∧ ∀ i, own i outs' = own i outs ∧ q'.handle i = p'.handle i := by
  have h1 := C124_independent kind env a p p' outs notes h
  obtain ⟨⟨outs', q', notes'⟩, h2⟩ := C124_defined kind env b q (fun i => ⟨_, by rw [← hab, ← hpq]; exact h1 i⟩)
  refine ⟨outs', q', notes', h2, fun i => ?_⟩
  have h3 := C124_independent kind env b q q' outs' notes' h2 i
  rw [← hab, ← hpq, h1 i] at h3
  simp only [Except.ok.injEq, Prod.mk.injEq] at h3
  exact ⟨h3.1.symm, h3.2.symm⟩

/-- a call as seen from outside, without what its lines quote -/
def outside (q : Outcome × Settings × (Bus × List Byte) × List Note) : Outcome × Settings × Bus × List (List Byte × List Byte) :=
  (q.1, q.2.1, q.2.2.1.1, q.2.2.2.map unquoted)

/-- the handle without `error_str` -/
def muteDesk (k : Kind) (env : Env) (purge : Int) : Desk Bus := { (busLink k env).ops purge with quote := fun _ => [], tell := fun s _ => s }

theorem view_outside {α : Type} {X : C (α × Bus × List Note)} {Y : C (α × (Bus × List Byte) × List Note)} {F : α → Outcome} (st : Settings)
    (h : X.map (view id) = Y.map (view Prod.fst)) :
    Except.map outside (do let (r, s, n) ← Y; .ok (F r, st, s, n)) = X.map fun q => (F q.1, st, q.2.1, q.2.2.map unquoted) := by
  cases X with
  | error e =>
    cases Y with
    | error e' => cases h; rfl
    | ok b => cases h
  | ok a =>
    cases Y with
    | error e' => cases h
    | ok b =>
      obtain ⟨r, s, n⟩ := a
      obtain ⟨r', s', n'⟩ := b
      simp only [map_ok, view, id, Except.ok.injEq, Prod.mk.injEq] at h
      obtain ⟨rfl, rfl, h⟩ := h
      simp only [ok_bind, map_ok, outside, h]

theorem view3_outside {α β : Type} {X : C (α × β × Bus × List Note)} {Y : C (α × β × (Bus × List Byte) × List Note)} {F : α → β → Outcome} (st : Settings)
    (h : X.map (view3 id) = Y.map (view3 Prod.fst)) :
    Except.map outside (do let (r, a, s, n) ← Y; .ok (F r a, st, s, n)) = X.map fun q => (F q.1 q.2.1, st, q.2.2.1, q.2.2.2.map unquoted) := by
  cases X with
  | error e =>
    cases Y with
    | error e' => cases h; rfl
    | ok b => cases h
  | ok a =>
    cases Y with
    | error e' => cases h
    | ok b =>
      obtain ⟨r, a, s, n⟩ := a
      obtain ⟨r', a', s', n'⟩ := b
      simp only [map_ok, view3, id, Except.ok.injEq, Prod.mk.injEq] at h
      obtain ⟨rfl, rfl, rfl, h⟩ := h
      simp only [ok_bind, map_ok, outside, h]

/-- seen from outside, a call does not depend on the text in `error_str` -/
theorem talk_outside (k : Kind) (env : Env) (st : Settings) (b : Bus) (t t' : List Byte) (c : Call) :
    (c.talk k env st (b, t)).map outside = (c.talk k env st (b, t')).map outside := by
  have ka : SimulatesAll (talkDesk k env st.purgeFirst).toOps (muteDesk k env st.purgeFirst).toOps Prod.fst := talk_ops k env st.purgeFirst
  have ks := ka.toSimulates
  have kb := talk_blind k env st.purgeFirst
  have kd : Deaf (muteDesk k env st.purgeFirst) := fun _ _ => rfl
  have both : ∀ (u : List Byte), ∃ R, ∀ t, (c.talk k env st (b, t)).map outside = R := by
    intro u
    unfold Call.talk
    cases c <;> dsimp only
    · rename_i f
      refine ⟨((muteDesk k env st.purgeFirst).send b f).map fun q => (.reply q.1 q.2.1, st, q.2.2, []), fun t => ?_⟩
      have := ks.send (b, t) f
      rw [show (muteDesk k env st.purgeFirst).send b f = _ from this, bind_map]
      cases (talkDesk k env st.purgeFirst).send (b, t) f <;> rfl
    · rename_i f
      refine ⟨((muteDesk k env st.purgeFirst).recv b f).map fun q => (.reply q.1 q.2.1, st, q.2.2, []), fun t => ?_⟩
      have := ks.recv (b, t) f
      rw [show (muteDesk k env st.purgeFirst).recv b f = _ from this, bind_map]
      cases (talkDesk k env st.purgeFirst).recv (b, t) f <;> rfl
    · refine ⟨((muteDesk k env st.purgeFirst).purge b).map fun q => (.code q.1, st, q.2, []), fun t => ?_⟩
      have := ks.purge (b, t)
      rw [show (muteDesk k env st.purgeFirst).purge b = _ from this, bind_map]
      cases (talkDesk k env st.purgeFirst).purge (b, t) <;> rfl
    · rename_i a
      exact ⟨_, fun t => view_outside (X := sendRequestD (muteDesk k env st.purgeFirst) b a) st (sendRequestD_view ks (b, t) a)⟩
    · rename_i a p
      exact ⟨_, fun t => view_outside (X := sendPingD (muteDesk k env st.purgeFirst) b a p) st (sendPingD_view ks (b, t) a p)⟩
    · rename_i a r
      exact ⟨_, fun t => view_outside (X := sendBaudD (muteDesk k env st.purgeFirst) b a r) st (sendBaudD_view ks (b, t) a r)⟩
    · rename_i a r
      exact ⟨_, fun t => view_outside (X := sendAppResetD (muteDesk k env st.purgeFirst) b a r) st (sendAppResetD_view ks (b, t) a r)⟩
    · rename_i a x n
      exact ⟨_, fun t => view_outside (X := sendUserDataD (muteDesk k env st.purgeFirst) b a x n) st (sendUserDataD_view ks (b, t) a x n)⟩
    · rename_i a r
      exact ⟨_, fun t => view_outside (X := setPrimaryAddressD (muteDesk k env st.purgeFirst) b a r) st (setPrimaryAddressD_view ks (b, t) a r)⟩
    · rename_i m
      exact ⟨_, fun t => view_outside (X := sendSelectD (muteDesk k env st.purgeFirst) b m) st (sendSelectD_view ks kb kd (b, t) m)⟩
    · rename_i m
      exact ⟨_, fun t => view_outside (X := selectSecondaryD (muteDesk k env st.purgeFirst) b m) st (selectSecondaryD_view ks kb kd (b, t) m)⟩
    · rename_i m
      exact ⟨_, fun t => view3_outside (X := probeSecondaryD (muteDesk k env st.purgeFirst) st b m) st (probeSecondaryD_view ka kb kd st (b, t) m)⟩
    · rename_i p m
      exact ⟨_, fun t => view_outside (X := scanRangeD (muteDesk k env st.purgeFirst) st b p m) st (scanRangeD_view ka kb kd st (b, t) p m)⟩
    · rename_i a f
      exact ⟨_, fun t => view3_outside (X := readSlaveD (muteDesk k env st.purgeFirst) b a f) st (readSlaveD_view ks kb kd (b, t) a f)⟩
    · rename_i a f m
      refine ⟨(sendrecvRequestD (muteDesk k env st.purgeFirst) st b a f m).map fun q => (.chain q.1.code q.1.chain, st, q.1.state, q.2.map unquoted), fun t => ?_⟩
      have := sendrecvRequestD_view ks kb kd st (b, t) a f m
      rw [show sendrecvRequestD (muteDesk k env st.purgeFirst) st b a f m = _ from this, bind_map]
      cases sendrecvRequestD (talkDesk k env st.purgeFirst) st (b, t) a f m <;> rfl
    · rename_i w v
      exact ⟨.ok (.code (setOption st w v).1, (setOption st w v).2, b, []), fun t => rfl⟩
  obtain ⟨R, hR⟩ := both []
  rw [hR, hR]

/-- the lines of calls on a single handle -/
def soliloquy (k : Kind) (env : Env) (st : Settings) (b : Bus) : List Call → C (List (List Byte × List Byte))
  | [] => .ok []
  | c :: cs => do
    let q ← (c.talk k env st (b, [])).map outside
    let ls ← soliloquy k env q.2.1 q.2.2.1 cs
    .ok (q.2.2.2 ++ ls)

theorem own_append {α : Type} (i : Nat) (a b : List (Nat × α)) : own i (a ++ b) = own i a ++ own i b := by simp [own]
theorem own_tagged_self {α : Type} (i : Nat) (l : List α) : own i (l.map fun x => (i, x)) = l := by
  induction l with
  | nil => rfl
  | cons x l ih => rw [List.map_cons, own_cons_self, ih]
theorem own_tagged_other {α : Type} {i j : Nat} (h : j ≠ i) (l : List α) : own i (l.map fun x => (j, x)) = [] := by
  induction l with
  | nil => rfl
  | cons x l ih => rw [List.map_cons, own_cons_other h, ih]

theorem run_soliloquy (kind : Nat → Kind) (env : Nat → Env) (sched : List (Nat × Call)) (p p' : Many) (outs : List (Nat × Outcome))
    (notes : List (Nat × Note)) (h : p.run kind env sched = .ok (outs, p', notes)) (i : Nat) :
    soliloquy (kind i) (env i) (p.handle i).1 (p.handle i).2 (own i sched) = .ok ((own i notes).map unquoted) := by
  induction sched generalizing p outs notes with
  | nil => cases h; rfl
  | cons q sched ih =>
    obtain ⟨j, c⟩ := q
    unfold Many.run at h
    obtain ⟨⟨out, p1, n⟩, h1, h⟩ := bind_eq_ok.mp h
    obtain ⟨⟨outs1, p2, ns⟩, h2, h⟩ := bind_eq_ok.mp h
    cases h
    unfold Many.step at h1
    obtain ⟨⟨out', st, s, n'⟩, h3, h1⟩ := bind_eq_ok.mp h1
    cases h1
    have ih := ih _ _ _ h2
    rw [own_append]
    by_cases hj : j = i
    · subst hj
      rw [own_cons_self, own_tagged_self]
      have h4 := talk_outside (kind j) (env j) (p.handle j).1 (p.handle j).2 p.err [] c
      rw [h3] at h4
      unfold soliloquy
      rw [← h4]
      simp only [if_true] at ih
      simp only [map_ok, ok_bind, outside]
      rw [ih]
      simp only [ok_bind, List.map_append]
    · rw [own_cons_other hj, own_tagged_other hj]
      simp only [if_neg (fun h : i = j => hj h.symm)] at ih
      exact ih

/-- C124: what is said about a handle on stderr does not depend on the other handles, except for the texts it quotes: in two processes in
which the same calls are made on handle `i` in the same order, starting from the same state of this handle and its bus, the lines about it
are the same, in the same order, up to the first colon in each. -/
theorem C124_lines (kind : Nat → Kind) (env : Nat → Env) (i : Nat) (a b : List (Nat × Call)) (hab : own i a = own i b) (p q : Many)
    (hpq : p.handle i = q.handle i) (outs outs' : List (Nat × Outcome)) (p' q' : Many) (notes notes' : List (Nat × Note))
    (h : p.run kind env a = .ok (outs, p', notes)) (h' : q.run kind env b = .ok (outs', q', notes')) :
    (own i notes).map unquoted = (own i notes').map unquoted := by
  have h1 := run_soliloquy kind env a p p' outs notes h i
  have h2 := run_soliloquy kind env b q q' outs' notes' h' i
  rw [← hab, ← hpq, h1] at h2
  injection h2

/-- C124 is false for the diagnostics: handle 0 (TCP) fails to transmit a request; then a selection on handle 1, another bus on a serial
line, fails as well, and the line about handle 1 quotes the failure of handle 0. -/
theorem C124_stderr_violation (env : Nat → Env) (p : Many) (mask : List Byte) (hl : mask.length = 16) (hx : ∀ c ∈ mask, IsHex c)
    (ht : (env 1).tty = true) (h0 : ∀ b n, (env 0).wret b n = -1) (h1 : ∀ b n, (env 1).wret b n = -1) :
    ∃ p' outs, p.run (fun i => if i = 0 then .tcp else .serial) env [(0, .request 5), (1, .select mask)] = .ok (outs, p',
      [(0, ⟨cs! "mbus_send_request_frame", cs! "failed to send mbus frame."⟩),
       (1, ⟨cs! "mbus_send_select_frame", cs! "Failed to send mbus frame."⟩),
       (1, ⟨cs! "mbus_select_secondary_address",
          cs! "Failed to send selection frame: mbus_tcp_send_frame: Failed to write frame to socket (ret = -1)\n."⟩)]) := by
  have hs := talk_send .tcp (env 0) (.inl rfl) (p.handle 0).2 p.err _ _ (show Spec.Telegram.Legal (.short 0x5B 5) by decide) (packs_short 0x5B 5)
  rw [h0, if_neg (by decide)] at hs
  have hr : sendRequestD (talkDesk .tcp (env 0) (p.handle 0).1.purgeFirst) ((p.handle 0).2, p.err) 5 =
      .ok (-1, (busAfter (env 0) (p.handle 0).2 (Spec.Telegram.short 0x5B 5).wire, afterSend .tcp (-1) (Spec.Telegram.short 0x5B 5).wire.length p.err),
        [⟨cs! "mbus_send_request_frame", cs! "failed to send mbus frame."⟩]) := by
    unfold sendRequestD finishD
    rw [if_neg (by decide)]
    have hs' : (talkDesk .tcp (env 0) (p.handle 0).1.purgeFirst).send ((p.handle 0).2, p.err)
      { frameNew TYPE_SHORT with control := MASK_REQ_UD2 ||| MASK_DIR_M2S, address := UInt8.ofNat (5 : Int).toNat } = _ := hs
    rw [hs']
    rfl
  obtain ⟨s', hq⟩ := select_refused .serial (env 1) (.inr ht) (p.handle 1).1.purgeFirst (p.handle 1).2
    (afterSend .tcp (-1) (Spec.Telegram.short 0x5B 5).wire.length p.err) mask hl hx (by rw [h1]; decide)
  unfold Many.run Many.step
  simp only [Call.talk, if_true]
  rw [hr]
  simp only [ok_bind]
  unfold Many.run Many.step
  simp only [Call.talk]
  simp only [show ¬ (1 : Nat) = 0 by decide, if_false]
  rw [hq]
  simp only [ok_bind]
  unfold Many.run
  have he : afterSend .tcp (-1) (Spec.Telegram.short 0x5B 5).wire.length p.err =
      cs! "mbus_tcp_send_frame: Failed to write frame to socket (ret = -1)\n" := by
    unfold afterSend
    rw [if_neg (by decide)]
    dsimp only
    decide +kernel
  simp only [afterSend] at he ⊢
  rw [he]
  exact ⟨_, _, rfl⟩

/-! ### a concrete schedule -/

/-- handle 0 cannot transmit, handle 1 is a serial line with nobody on it, handle 2 a gateway that closes the connection -/
def threeBuses (i : Nat) : Env := if i = 0 then deaf else if i = 1 then quiet else gone
def threeKinds (i : Nat) : Kind := if i = 1 then .serial else .tcp
/-- fresh handles -/
def freshProcess : Many := ⟨[], fun _ => (Settings.default, ⟨[], []⟩)⟩
/-- the calls of three users, interleaved -/
def mixed : List (Nat × Call) :=
  [(0, .request 5), (1, .option 0 1), (2, .request 7), (1, .ping 3 true), (0, .reset 254 0x10), (2, .recv (frameNew 0)), (1, .recv (frameNew 0))]
/-- the same calls, each user in turn -/
def inTurn : List (Nat × Call) :=
  [(1, .option 0 1), (1, .ping 3 true), (1, .recv (frameNew 0)), (2, .request 7), (2, .recv (frameNew 0)), (0, .request 5), (0, .reset 254 0x10)]

/-- the integer a call returned -/
def Outcome.ret : Outcome → Int
  | .code r => r
  | .reply r _ => r
  | .matched r _ => r
  | .chain r _ => r

/-- the schedule runs: failures on handle 0 only, the lost connection on handle 2, a time-out on handle 1 -/
theorem mixed_check : (match freshProcess.run threeKinds threeBuses mixed with
    | .ok q => decide (q.1.map (fun x => (x.1, x.2.ret)) = [(0, -1), (1, 0), (2, 0), (1, 0), (0, -1), (2, -4), (1, -3)] ∧
        ((q.2.1.handle 1).2.sent, (q.2.1.handle 2).2.sent) = ([[0x10, 0x40, 3, 0x43, 0x16]], [[0x10, 0x5B, 7, 0x62, 0x16]]))
    | .error _ => false) = true := by decide +kernel

theorem mixed_runs : ∃ outs p' notes, freshProcess.run threeKinds threeBuses mixed = .ok (outs, p', notes) := by
  have h := mixed_check
  generalize freshProcess.run threeKinds threeBuses mixed = q at h ⊢
  cases q with
  | ok q => exact ⟨_, _, _, rfl⟩
  | error e => cases h

/-- the hypotheses of the C124 theorems hold here -/
example : ∃ (outs : List (Nat × Outcome)) (p' : Many), alone (busLink .serial quiet) (Settings.default, ⟨[], []⟩) [.option 0 1, .ping 3 true, .recv (frameNew 0)] =
    .ok (own 1 outs, p'.handle 1) := by
  obtain ⟨outs, p', notes, h⟩ := mixed_runs
  exact ⟨outs, p', C124_independent _ _ _ _ _ _ _ h 1⟩
example : ∃ p' : Many, runCalls (busLink .tcp gone) (Settings.default, ⟨[], []⟩) [.request 7, .recv (frameNew 0)] = .ok (p'.handle 2) := by
  obtain ⟨outs, p', notes, h⟩ := mixed_runs
  exact ⟨p', C124_transmits _ _ _ _ _ _ _ h 2⟩
theorem mixed_inTurn (i : Nat) : own i mixed = own i inTurn := by
  match i with
  | 0 => rfl
  | 1 => rfl
  | 2 => rfl
  | n + 3 => simp [own, mixed, inTurn]
example : ∃ outs' q' notes', freshProcess.run threeKinds threeBuses inTurn = .ok (outs', q', notes') := by
  obtain ⟨outs, p', notes, h⟩ := mixed_runs
  obtain ⟨a, b, c, h, -⟩ := C124_order _ _ mixed inTurn mixed_inTurn freshProcess freshProcess rfl _ _ _ h
  exact ⟨a, b, c, h⟩
example : ∃ r, freshProcess.run threeKinds threeBuses inTurn = .ok r := by
  obtain ⟨outs, p', notes, h⟩ := mixed_runs
  refine C124_defined _ _ _ _ fun i => ?_
  rw [← mixed_inTurn]
  exact ⟨_, C124_independent _ _ _ _ _ _ _ h i⟩
/-- the lines about handle 0 in the mixed schedule, and in the other one when the error text is another -/
example : ∃ notes notes' : List (Nat × Note), (own 0 notes).map unquoted = (own 0 notes').map unquoted := by
  obtain ⟨outs, p', notes, h⟩ := mixed_runs
  obtain ⟨outs', q', notes', h', -⟩ := C124_order _ _ mixed inTurn mixed_inTurn freshProcess ⟨cs! "M-Bus", freshProcess.handle⟩ rfl _ _ _ h
  exact ⟨notes, notes', C124_lines threeKinds threeBuses 0 mixed inTurn (mixed_inTurn 0) freshProcess ⟨cs! "M-Bus", freshProcess.handle⟩ rfl outs outs' p' q' notes notes' h h'⟩
example := C124_stderr_violation (fun _ => deaf) freshProcess (cs! "12345678FFFFFFFF") rfl (by decide) rfl (fun _ _ => rfl) (fun _ _ => rfl)

end Mbus
