import Verif.Spec.Crash
import Verif.Props.Tools
import Verif.Props.ToolCommands
import Verif.Props.ToolRead
import Verif.Props.ToolScan
import Verif.Props.ToolSelect
/-
Property theorems C123: the program may be killed at any point.  A state of the program between two calls on the handle is a prefix
of the log of the whole run.
-/
namespace Mbus
open Spec

theorem carries_telegramOf {f : Frame} {t : Spec.Telegram} (h : Carries f t) : telegramOf f = some t := by
  unfold telegramOf
  cases t with
  | ack => rw [if_pos (show f.type = 1 from h)]
  | short c a => rw [if_neg (by rw [h.1]; decide), if_pos h.1, h.2.1, h.2.2]
  | data c a ci p =>
    obtain ⟨h1, h2, h3, h4, h5, h6⟩ := h
    by_cases hp : p = []
    · rw [if_pos hp] at h1
      rw [if_neg (by rw [h1]; decide), if_neg (by rw [h1]; decide), if_pos h1, h2, h3, h4, hp]
    · rw [if_neg hp] at h1
      rw [if_neg (by rw [h1]; decide), if_neg (by rw [h1]; decide), if_neg (by rw [h1]; decide), if_pos h1, h2, h3, h4, h6]

theorem heard_append {l l' : List Act} {ts : List Spec.Telegram} (h : Heard (l ++ l') ts) : ∃ us vs, ts = us ++ vs ∧ Heard l us ∧ Heard l' vs := by
  induction l generalizing ts with
  | nil => exact ⟨[], ts, rfl, .nil, h⟩
  | cons a l ih =>
    generalize hx : (a :: l) ++ l' = x at h
    cases h with
    | nil => cases hx
    | arrived f c t k ts hf hk =>
      cases hx
      obtain ⟨us, vs, rfl, h1, h2⟩ := ih hk
      exact ⟨t :: us, vs, rfl, .arrived f c t l us hf h1, h2⟩
    | lost f k ts hk =>
      cases hx
      obtain ⟨us, vs, rfl, h1, h2⟩ := ih hk
      exact ⟨us, vs, rfl, .lost f l us h1, h2⟩
    | quiet b k ts hb hk =>
      cases hx
      obtain ⟨us, vs, rfl, h1, h2⟩ := ih hk
      exact ⟨us, vs, rfl, .quiet a l us hb h1, h2⟩

theorem heard_mem {l : List Act} {ts : List Spec.Telegram} (h : Heard l ts) : ∀ t ∈ ts, ∃ f c, Act.sent f c ∈ l ∧ telegramOf f = some t := by
  induction h with
  | nil => intro t ht; cases ht
  | arrived f c t l ts hf _ ih =>
    intro u hu
    rcases List.mem_cons.mp hu with rfl | hu
    · exact ⟨f, c, List.mem_cons_self .., hf⟩
    · obtain ⟨g, d, h1, h2⟩ := ih u hu
      exact ⟨g, d, List.mem_cons_of_mem _ h1, h2⟩
  | lost f l ts _ ih =>
    intro u hu
    obtain ⟨g, d, h1, h2⟩ := ih u hu
    exact ⟨g, d, List.mem_cons_of_mem _ h1, h2⟩
  | quiet a l ts _ _ ih =>
    intro u hu
    obtain ⟨g, d, h1, h2⟩ := ih u hu
    exact ⟨g, d, List.mem_cons_of_mem _ h1, h2⟩

theorem Spec.Slave.after_append (m : Slave) (ts us : List Spec.Telegram) : m.after (ts ++ us) = (m.after ts).after us := List.foldl_append ..

theorem Spec.Slave.after_one (m : Slave) (t : Spec.Telegram) : m.after [t] = m.hear t := rfl

theorem Spec.Slave.hear_sec (m : Slave) (t : Spec.Telegram) : (m.hear t).sec = m.sec := by
  cases t <;> simp only [Slave.hear] <;> repeat' split
  all_goals rfl

theorem Spec.Slave.after_sec (m : Slave) (ts : List Spec.Telegram) : (m.after ts).sec = m.sec := by
  induction ts generalizing m with
  | nil => rfl
  | cons t ts ih => exact (ih (m.hear t)).trans (m.hear_sec t)

/-- the telegram changes at most whether the meter is selected -/
def KeepsMeter (t : Spec.Telegram) : Prop := ∀ m : Slave, (m.hear t).addr = m.addr ∧ (m.hear t).baud = m.baud

theorem harmless_after {ts : List Spec.Telegram} (h : ∀ t ∈ ts, KeepsMeter t) (m : Slave) : (m.after ts).addr = m.addr ∧ (m.after ts).baud = m.baud := by
  induction ts generalizing m with
  | nil => exact ⟨rfl, rfl⟩
  | cons t ts ih =>
    have h1 := h t (List.mem_cons_self ..) m
    have h2 := ih (fun u hu => h u (List.mem_cons_of_mem _ hu)) (m.hear t)
    exact ⟨h2.1.trans h1.1, h2.2.trans h1.2⟩

theorem harmless_short (c a : Byte) : KeepsMeter (.short c a) := by
  intro m
  simp only [Slave.hear]
  split <;> exact ⟨rfl, rfl⟩

theorem harmless_select (p : List Byte) : KeepsMeter (.data 0x73 0xFD 0x52 p) := fun _ => ⟨rfl, rfl⟩

theorem harmless_frame {f : Frame} {t t' : Spec.Telegram} (h : Carries f t) (ht : KeepsMeter t) (h' : telegramOf f = some t') : KeepsMeter t' := by
  rw [carries_telegramOf h] at h'
  cases h'
  exact ht

theorem harmless_selection {mask : List Byte} {f : Frame} {t : Spec.Telegram} (h : SelectionFrame mask f) (h' : telegramOf f = some t) : KeepsMeter t := by
  obtain ⟨p, _, h1, _⟩ := h
  exact harmless_frame h1 (harmless_select p) h'

theorem harmless_readout {addr : List Byte} {f : Frame} {t : Spec.Telegram} (h : ReadoutFrame addr f) (h' : telegramOf f = some t) : KeepsMeter t := by
  cases h with
  | reset h => exact harmless_frame h (harmless_short _ _) h'
  | select _ h => exact harmless_selection h h'
  | request c d _ _ _ h => exact harmless_frame h (harmless_short _ _) h'

theorem harmless_setup {old new : List Byte} {f : Frame} {t : Spec.Telegram} (h : SetupFrame old new f) (h' : telegramOf f = some t) : KeepsMeter t := by
  cases h with
  | reset h => exact harmless_frame h (harmless_short _ _) h'
  | ping n _ _ h => exact harmless_frame h (harmless_short _ _) h'
  | select _ h => exact harmless_selection h h'

theorem harmless_scan {f : Frame} {t : Spec.Telegram} (h : ScanFrame f) (h' : telegramOf f = some t) : KeepsMeter t := by
  rcases h with h | h | ⟨m, _, h⟩ | h
  · exact harmless_frame h (harmless_short _ _) h'
  · exact harmless_frame h (harmless_short _ _) h'
  · exact harmless_selection h h'
  · exact harmless_frame h (harmless_short _ _) h'

/-- a prefix of a log in which only harmless frames are sent -/
theorem harmless_prefix {P : Frame → Prop} (hP : ∀ f t, P f → telegramOf f = some t → KeepsMeter t) {log pre post : List Act} (h : ∀ f c, Act.sent f c ∈ log → P f)
    (hl : log = pre ++ post) {ts : List Spec.Telegram} (ht : Heard pre ts) (m : Slave) : (m.after ts).addr = m.addr ∧ (m.after ts).baud = m.baud := by
  refine harmless_after (fun t htm => ?_) m
  obtain ⟨f, c, h1, h2⟩ := heard_mem ht t htm
  exact hP f t (h f c (by rw [hl]; exact List.mem_append_left _ h1)) h2

/-! ### C123 -/

/-- C123 for `mbus-serial-request-data`: wherever the program is killed, no meter has got another address or baud rate. -/
theorem C123_request {σ : Type} (init : Bool) (junk0 : Nat → Byte) (junk : Nat → Nat → Byte) (stamp : Option (List Byte)) (o : Ops σ) (s : σ) (addr : List Byte)
    (e : Exit (σ × List Act)) (h : requestTool init junk0 junk stamp o.logged (s, []) addr = .ok e)
    (pre post : List Act) (hp : e.state.2 = pre ++ post) (ts : List Spec.Telegram) (ht : Heard pre ts) (m : Slave) :
    (m.after ts).addr = m.addr ∧ (m.after ts).baud = m.baud :=
  harmless_prefix (fun _ _ h h' => harmless_readout h h') (C91_request init junk0 junk stamp o s addr e h).1 hp ht m

/-- C123 for `mbus-serial-request-data-multi-reply` -/
theorem C123_multi {σ : Type} (junk0 : Nat → Byte) (junk : Nat → Nat → Byte) (stamps : Nat → Option (List Byte)) (o : Ops σ) (ho : Sound o) (st : Settings)
    (hst : SettingsOk st) (s : σ) (mf : Int) (addr : List Byte) (e : Exit (σ × List Act)) (h : multiTool junk0 junk stamps o.logged st (s, []) mf addr = .ok e)
    (pre post : List Act) (hp : e.state.2 = pre ++ post) (ts : List Spec.Telegram) (ht : Heard pre ts) (m : Slave) :
    (m.after ts).addr = m.addr ∧ (m.after ts).baud = m.baud :=
  harmless_prefix (fun _ _ h h' => harmless_readout h h') (C92_multi junk0 junk stamps o ho st hst s mf addr e h).1 hp ht m

/-- C123 for `mbus-serial-scan-secondary` -/
theorem C123_scan {σ : Type} (o : Ops σ) (st : Settings) (s : σ) (mask : List Byte) (e : Exit (σ × List Act))
    (h : scanSecondaryTool o.logged st (s, []) mask = .ok e)
    (pre post : List Act) (hp : e.state.2 = pre ++ post) (ts : List Spec.Telegram) (ht : Heard pre ts) (m : Slave) :
    (m.after ts).addr = m.addr ∧ (m.after ts).baud = m.baud :=
  harmless_prefix (fun _ _ h h' => harmless_scan h h') (C94_scan o st s mask e h).1 hp ht m

theorem pinging_frames {a n : Nat} {ls : List Line} {l : List Act} (h : Pinging a n ls l) : ∀ f c, Act.sent f c ∈ l → PingFrame a f := by
  induction h with
  | exhausted => intro f c hm; cases hm
  | again n f c g ls l hf _ _ ih =>
    intro f' c' hm
    simp only [List.mem_cons, Act.sent.injEq, reduceCtorEq, false_or] at hm
    rcases hm with ⟨rfl, _⟩ | hm
    · exact hf
    · exact ih f' c' hm
  | sendFailed n f hf => intro f' c' hm; simp at hm; rw [hm.1]; exact hf
  | garbage n f c g r hf => intro f' c' hm; simp at hm; rw [hm.1]; exact hf
  | crowd n f c g r hf => intro f' c' hm; simp at hm; rw [hm.1]; exact hf
  | found n f c g hf => intro f' c' hm; simp at hm; rw [hm.1]; exact hf
  | other n f c rc g hf => intro f' c' hm; simp at hm; rw [hm.1]; exact hf

/-- C123 for `mbus-serial-scan` -/
theorem C123_primary_scan {σ : Type} (o : Ops σ) (hh : Honest o) (st : Settings) (s : σ) (retries : Int) (e : Exit (σ × List Act))
    (h : scanTool o.logged st (s, []) retries = .ok e)
    (pre post : List Act) (hp : e.state.2 = pre ++ post) (ts : List Spec.Telegram) (ht : Heard pre ts) (m : Slave) :
    (m.after ts).addr = m.addr ∧ (m.after ts).baud = m.baud := by
  refine harmless_prefix (P := fun f => ∃ a, PingFrame a f) (fun f t ⟨a, hf⟩ h' => harmless_frame hf (harmless_short _ _) h') ?_ hp ht m
  by_cases hr : 0 ≤ retries ∧ retries ≤ 9
  · obtain ⟨_, parts, _, _, h3, h4⟩ := C87_scan o hh st s retries hr e h
    intro f c hm
    rw [h3] at hm
    obtain ⟨q, hq, hm⟩ := List.mem_flatMap.mp hm
    obtain ⟨i, hi, rfl⟩ := List.getElem_of_mem hq
    exact ⟨i, pinging_frames (h4 i hi) f c hm⟩
  · rw [C87_refused o.logged st (s, []) retries hr] at h
    cases h
    intro f c hm
    cases hm

/-- C123 for `mbus-serial-select-secondary` -/
theorem C123_select {σ : Type} (o : Ops σ) (junk : Frame) (wild : Bool) (s : σ) (addr : List Byte) (e : Exit (σ × List Act))
    (h : selectTool junk wild o.logged (s, []) addr = .ok e)
    (pre post : List Act) (hp : e.state.2 = pre ++ post) (ts : List Spec.Telegram) (ht : Heard pre ts) (m : Slave) :
    (m.after ts).addr = m.addr ∧ (m.after ts).baud = m.baud := by
  refine harmless_prefix (P := ScanFrame) (fun f t hf h' => harmless_scan hf h') ?_ hp ht m
  unfold selectTool at h
  by_cases hm : AddressMask addr
  case neg =>
    rw [if_pos (by rw [← Bool.not_eq_true, isSecondary_iff]; exact hm)] at h
    cases h
    intro f c h; cases h
  rw [if_neg (by rw [(isSecondary_iff addr).mpr hm]; decide), bind_eq_ok] at h
  obtain ⟨⟨r, s1, log1⟩, h1, h⟩ := h
  rcases sendSelect_log o s [] addr r _ h1 with ⟨hn, _⟩ | ⟨_, f, c, hf, hl, hr⟩
  · exact absurd hm hn
  simp only [List.nil_append] at hl h
  subst hl
  have hsel : ScanFrame f := .inr (.inr (.inl ⟨addr, hm, hf⟩))
  have p1 : ∀ x d, Act.sent x d ∈ [Act.sent f c] → ScanFrame x := by
    intro x d hx; simp at hx; rw [hx.1]; exact hsel
  by_cases hr1 : r = -1
  · rw [if_pos hr1] at h; cases h; exact p1
  rw [if_neg hr1, logged_recv_eq] at h
  cases hq : o.recv s1 junk with
  | error e => rw [hq] at h; cases h
  | ok q =>
    obtain ⟨rc, g, s2⟩ := q
    rw [hq] at h
    simp only [ok_bind, List.cons_append, List.nil_append] at h
    have p2 : ∀ x d, Act.sent x d ∈ [Act.sent f c, .received rc g] → ScanFrame x := by
      intro x d hx; simp at hx; rw [hx.1]; exact hsel
    by_cases ht : rc = RECV_TIMEOUT
    · rw [if_pos ht] at h; cases h; exact p2
    rw [if_neg ht] at h
    by_cases hi : rc = RECV_INVALID
    · rw [if_pos hi] at h; cases h; exact p2
    rw [if_neg hi] at h
    by_cases hg : g.type = TYPE_ACK
    case neg =>
      rw [if_neg hg] at h
      unfold printReply at h
      cases wild <;> cases h
      exact p2
    rw [if_pos hg, bind_eq_ok] at h
    obtain ⟨⟨r, s3, log3⟩, h2, h⟩ := h
    rcases request_log o s2 _ 0xFD r _ h2 with ⟨hn, _⟩ | ⟨_, q, c', hq', hl, hr⟩
    · exact absurd (by decide) hn
    simp only [List.cons_append, List.nil_append] at hl h
    subst hl
    have hreq : ScanFrame q := .inr (.inr (.inr hq'))
    have p3 : ∀ x d, Act.sent x d ∈ [Act.sent f c, .received rc g, .sent q c'] → ScanFrame x := by
      intro x d hx
      simp at hx
      rcases hx with hx | hx
      · rw [hx.1]; exact hsel
      · rw [hx.1]; exact hreq
    by_cases hr1 : r = -1
    · rw [if_pos hr1] at h; cases h; exact p3
    rw [if_neg hr1, logged_recv_eq] at h
    cases hq2 : o.recv s3 g with
    | error e => rw [hq2] at h; cases h
    | ok q2 =>
      obtain ⟨rc', g', s4⟩ := q2
      rw [hq2] at h
      simp only [ok_bind, List.cons_append, List.nil_append] at h
      have p4 : ∀ x d, Act.sent x d ∈ [Act.sent f c, .received rc g, .sent q c', .received rc' g'] → ScanFrame x := by
        intro x d hx
        simp at hx
        rcases hx with hx | hx
        · rw [hx.1]; exact hsel
        · rw [hx.1]; exact hreq
      by_cases hok : rc' ≠ RECV_OK
      · rw [if_pos hok] at h; cases h; exact p4
      rw [if_neg hok] at h
      by_cases hg' : g'.type ≠ TYPE_ACK
      · rw [if_pos hg', bind_eq_ok] at h
        obtain ⟨a, _, h⟩ := h
        cases a with
        | none => cases h
        | some a => cases h; exact p4
      · rw [if_neg hg'] at h; cases h; exact p4

/-- two ways to cut a log into two parts -/
theorem cut_cases {α : Type} {a b pre post : List α} (h : a ++ b = pre ++ post) : (∃ r, a = pre ++ r) ∨ ∃ r, pre = a ++ r ∧ b = r ++ post := by
  rcases List.append_eq_append_iff.mp h with ⟨r, h1, h2⟩ | ⟨r, h1, h2⟩
  · exact .inr ⟨r, h1, h2⟩
  · exact .inl ⟨r, h1⟩

theorem cut_single {α : Type} {a : α} {b pre post : List α} (h : [a] ++ b = pre ++ post) : pre = [] ∨ ∃ r, pre = a :: r ∧ b = r ++ post := by
  cases pre with
  | nil => exact .inl rfl
  | cons x r => simp at h; exact .inr ⟨r, by rw [h.1], h.2⟩

theorem commandFrame_telegram {a ci : Byte} {p : List Byte} {f : Frame} (h : CommandFrame a ci p f) : telegramOf f = some (.data 0x53 a ci p) := by
  obtain ⟨h1, h2, h3, h4, h5, h6⟩ := h
  unfold telegramOf
  rcases h1 with h1 | ⟨h1, rfl⟩
  · rw [if_neg (by rw [h1]; decide), if_neg (by rw [h1]; decide), if_neg (by rw [h1]; decide), if_pos h1, h2, h3, h4, h6]
  · rw [if_neg (by rw [h1]; decide), if_neg (by rw [h1]; decide), if_pos h1, h2, h3, h4]

theorem heard_nosend {l : List Act} {ts : List Spec.Telegram} (h : Heard l ts) (hn : ∀ f c, Act.sent f c ∉ l) : ts = [] := by
  cases ts with
  | nil => rfl
  | cons t ts =>
    obtain ⟨f, c, h1, _⟩ := heard_mem h t (List.mem_cons_self ..)
    exact absurd h1 (hn f c)

/-- of one transmission, the meters have heard nothing or the telegram -/
theorem heard_one {f : Frame} {c : Int} {t : Spec.Telegram} (hf : telegramOf f = some t) {l : List Act} (hn : ∀ f c, Act.sent f c ∉ l) {ts : List Spec.Telegram}
    (h : Heard (.sent f c :: l) ts) : (ts = [] ∧ c = -1) ∨ ts = [t] := by
  cases h with
  | arrived _ _ t' _ us h1 h2 =>
    rw [hf] at h1
    cases h1
    rw [heard_nosend h2 hn]
    exact .inr rfl
  | lost _ _ _ h2 => exact .inl ⟨heard_nosend h2 hn, rfl⟩
  | quiet _ _ _ h1 _ => exact absurd rfl (h1 f c)

/-- a run of harmless transmissions, one command, and then only receiving; cut anywhere -/
theorem heard_cut {P : Frame → Prop} (hP : ∀ f t, P f → telegramOf f = some t → KeepsMeter t) {l tail pre post : List Act} {f : Frame} {c : Int} {t : Spec.Telegram}
    (hl : ∀ g d, Act.sent g d ∈ l → P g) (hf : telegramOf f = some t) (hn : ∀ g d, Act.sent g d ∉ tail) (hp : l ++ ([.sent f c] ++ tail) = pre ++ post)
    {ts : List Spec.Telegram} (ht : Heard pre ts) :
    (∀ u ∈ ts, KeepsMeter u) ∨ ∃ us, ts = us ++ [t] ∧ Heard l us := by
  have keep : ∀ l', (∀ g d, Act.sent g d ∈ l' → P g) → ∀ us, Heard l' us → ∀ u ∈ us, KeepsMeter u := by
    intro l' hl' us hus u hu
    obtain ⟨g, d, h1, h2⟩ := heard_mem hus u hu
    exact hP g u (hl' g d h1) h2
  rcases cut_cases hp with ⟨r, hr⟩ | ⟨r, rfl, hr⟩
  · exact .inl (keep pre (fun g d hm => hl g d (by rw [hr]; exact List.mem_append_left _ hm)) ts ht)
  · obtain ⟨us, vs, rfl, h1, h2⟩ := heard_append ht
    have k1 := keep l hl us h1
    rcases cut_single hr with rfl | ⟨r', rfl, hr'⟩
    · cases h2
      exact .inl (by simpa using k1)
    · rcases heard_one hf (fun g d hm => hn g d (by rw [hr']; exact List.mem_append_left _ hm)) h2 with ⟨rfl, _⟩ | rfl
      · exact .inl (by simpa using k1)
      · exact .inr ⟨us, rfl, h1⟩

/-- waiting for the reply and printing it sends nothing -/
theorem reply_tail {σ : Type} (o : Ops σ) (junk : Frame) (wild : Bool) (s : σ) (log : List Act) (r : Int) (line : Line) (e : Exit (σ × List Act))
    (h : (if r = -1 then .ok ⟨1, [], (s, log)⟩
      else do
        let (rc, reply, s) ← o.logged.recv (s, log) junk
        if rc = RECV_TIMEOUT then .ok ⟨1, [], s⟩
        else if reply.type ≠ TYPE_ACK then do
          let d ← printReply wild reply
          .ok ⟨0, d, s⟩
        else .ok ⟨0, [line], s⟩ : C (Exit (σ × List Act))) = .ok e) : ∃ tail, e.state.2 = log ++ tail ∧ ∀ g d, Act.sent g d ∉ tail := by
  by_cases hr : r = -1
  · rw [if_pos hr] at h; cases h; exact ⟨[], by simp, by simp⟩
  rw [if_neg hr, logged_recv_eq] at h
  cases hq : o.recv s junk with
  | error e => rw [hq] at h; cases h
  | ok q =>
    obtain ⟨rc, g, s2⟩ := q
    rw [hq] at h
    simp only [ok_bind] at h
    refine ⟨[.received rc g], ?_, by simp⟩
    by_cases ht : rc = RECV_TIMEOUT
    · rw [if_pos ht] at h; cases h; rfl
    rw [if_neg ht] at h
    by_cases hg : g.type ≠ TYPE_ACK
    · rw [if_pos hg] at h
      unfold printReply at h
      cases wild <;> cases h
      rfl
    · rw [if_neg hg] at h; cases h; rfl

/-- C123 for `mbus-serial-switch-baudrate`: wherever the program is killed, every meter has its address; and either every meter has
its baud rate, or exactly the meters that listen to the given address have the new one. -/
theorem C123_baud {σ : Type} (o : Ops σ) (junk : Frame) (wild : Bool) (s : σ) (a baud : Int) (e : Exit (σ × List Act))
    (h : switchBaudTool junk wild o.logged (s, []) a baud = .ok e)
    (pre post : List Act) (hp : e.state.2 = pre ++ post) (ts : List Spec.Telegram) (ht : Heard pre ts) :
    (∀ m : Slave, (m.after ts).addr = m.addr) ∧
    ((∀ m : Slave, (m.after ts).baud = m.baud) ∨ ∀ m : Slave, (m.after ts).baud = if m.Listens (UInt8.ofNat a.toNat) then baud else m.baud) := by
  have trivially : ts = [] → (∀ m : Slave, (m.after ts).addr = m.addr) ∧
    ((∀ m : Slave, (m.after ts).baud = m.baud) ∨ ∀ m : Slave, (m.after ts).baud = if m.Listens (UInt8.ofNat a.toNat) then baud else m.baud) := by
    rintro rfl
    exact ⟨fun _ => rfl, .inl fun _ => rfl⟩
  have hlog : e.state.2 = [] ∨ ∃ ci f c tail, (baud, ci) ∈ baudTable ∧ CommandFrame (UInt8.ofNat a.toNat) ci [] f ∧ e.state.2 = [] ++ ([.sent f c] ++ tail) ∧
      ∀ g d, Act.sent g d ∉ tail := by
    unfold switchBaudTool at h
    rw [bind_eq_ok] at h
    obtain ⟨⟨r, s1, log1⟩, h1, h⟩ := h
    rcases baud_log o s [] a baud r _ h1 with ⟨_, rfl, hs⟩ | ⟨_, ci, hci, f, c, hf, hl, hr⟩
    · simp only at h
      rw [if_pos trivial] at h
      cases h
      cases hs
      exact .inl rfl
    · right
      simp only [List.nil_append] at hl h
      subst hl
      obtain ⟨tail, hl, hn⟩ := reply_tail o junk wild s1 [.sent f c] r _ e h
      exact ⟨ci, f, c, tail, hci, hf, hl, hn⟩
  rcases hlog with hs | ⟨ci, f, c, tail, hci, hf, hl, hn⟩
  · rw [hs] at hp
    obtain ⟨rfl, _⟩ := List.append_eq_nil_iff.mp hp.symm
    cases ht
    exact trivially rfl
  · rw [hl] at hp
    rcases heard_cut (P := fun _ => False) (fun _ _ h => h.elim) (by simp) (commandFrame_telegram hf) hn hp ht with hk | ⟨us, rfl, hus⟩
    · exact ⟨fun m => (harmless_after hk m).1, .inl fun m => (harmless_after hk m).2⟩
    · cases hus
      have h2 : ci ≠ 0x52 ∧ ci ≠ 0x51 ∧ asked ci = some baud := by
        simp only [baudTable, List.mem_cons, Prod.mk.injEq, List.not_mem_nil, or_false] at hci
        rcases hci with h | h | h | h | h | h | h | h <;> (obtain ⟨rfl, rfl⟩ := h; decide)
      have h3 : ∀ m : Slave, m.hear (.data 0x53 (UInt8.ofNat a.toNat) ci []) = if m.Listens (UInt8.ofNat a.toNat) then { m with baud := baud } else m := by
        intro m
        simp only [Slave.hear]
        rw [if_neg (by decide), if_neg (fun h => h2.1 h.2)]
        by_cases hm : m.Listens (UInt8.ofNat a.toNat)
        · rw [if_neg (by simpa using hm), if_neg h2.2.1, h2.2.2, if_pos hm]; rfl
        · rw [if_pos hm, if_neg hm]
      simp only [List.nil_append, Slave.after, List.foldl_cons, List.foldl_nil, h3]
      refine ⟨fun m => ?_, .inr fun m => ?_⟩ <;> split <;> rfl

theorem selection_frames {mask : List Byte} {r : Int} {l : List Act} (h : Selection mask r l) : ∀ f c, Act.sent f c ∈ l → SelectionFrame mask f := by
  intro f c hm
  cases h <;> simp at hm <;> (obtain ⟨rfl, rfl⟩ := hm; assumption)

theorem reached_frames {addr : List Byte} {dest : Int} {l : List Act} (h : Reached addr dest l) : ∀ f c, Act.sent f c ∈ l → SelectionFrame addr f := by
  cases h with
  | secondary _ _ h => exact selection_frames h
  | primary => intro f c hm; cases hm

/-- C123 for `mbus-serial-reset` (application reset): wherever the program is killed, no meter has got another address or baud rate. -/
theorem C123_reset {σ : Type} (o : Ops σ) (junk : Frame) (wild : Bool) (s : σ) (addr : List Byte) (sub : Int) (e : Exit (σ × List Act))
    (h : resetTool junk wild o.logged (s, []) addr sub = .ok e)
    (pre post : List Act) (hp : e.state.2 = pre ++ post) (ts : List Spec.Telegram) (ht : Heard pre ts) (m : Slave) :
    (m.after ts).addr = m.addr ∧ (m.after ts).baud = m.baud := by
  refine harmless_prefix (P := fun f => SelectionFrame addr f ∨ ∃ a p, CommandFrame a 0x50 p f) ?_ ?_ hp ht m
  · rintro f t (hf | ⟨a, p, hf⟩) h'
    · exact harmless_selection hf h'
    · rw [commandFrame_telegram hf] at h'
      cases h'
      intro m
      simp only [Slave.hear]
      rw [if_neg (by decide), if_neg (fun h => absurd h.2 (by decide)), if_neg (show ¬ (0x50 : Byte) = 0x51 by decide)]
      split <;> exact ⟨rfl, rfl⟩
  · unfold resetTool at h
    rw [bind_eq_ok] at h
    obtain ⟨⟨t, s0, log0⟩, h0, h⟩ := h
    have hl0 : ∀ f c, Act.sent f c ∈ log0 → SelectionFrame addr f := by
      rcases reach_log o s [] addr t _ h0 with ⟨_, l, r, e3, hs, _⟩ | ⟨_, _, hs⟩
      · simp only [List.nil_append] at e3
        subst e3
        exact selection_frames hs
      · cases hs
        intro f c hm; cases hm
    cases t with
    | none => simp only at h; cases h; exact fun f c hm => .inl (hl0 f c hm)
    | some dest =>
      simp only at h
      rw [bind_eq_ok] at h
      obtain ⟨⟨r, s1, log1⟩, h1, h⟩ := h
      obtain ⟨tail, hl, hn⟩ := reply_tail o junk wild s1 log1 r _ e h
      intro f c hm
      rw [hl] at hm
      have hm := (List.mem_append.mp hm).resolve_right (hn f c)
      rcases reset_log o s0 log0 dest sub r _ h1 with ⟨_, _, hs⟩ | ⟨_, _, g, d, hf, hl, _⟩
      · cases hs; exact .inl (hl0 f c hm)
      · simp only at hl
        rw [hl] at hm
        rcases List.mem_append.mp hm with hm | hm
        · exact .inl (hl0 f c hm)
        · simp at hm; rw [hm.1]; exact .inr ⟨_, _, hf⟩

/-- the effect of the whole sequence up to the command -/
theorem setup_command {old new : List Byte} {n : Nat} {init sel : List Act} {p g : Frame} {cp dest : Int} (hid : AddressMask old → ∀ c ∈ old.take 8, IdDigit c)
    (hfd : ¬ AddressMask old → atoi old ≠ 253) (hn : atoi new = n) (hn2 : n ≤ 252) (hd0 : 0 ≤ dest) (hd1 : dest ≤ 255) (hi : OnlyResets init) (hpf : PingFrame n p)
    (hre : Reached old dest sel) :
    (∀ x d, Act.sent x d ∈ init ++ [.sent p cp, .received RECV_TIMEOUT g] ++ sel → SetupFrame old new x) ∧
    ∀ us, Heard (init ++ [.sent p cp, .received RECV_TIMEOUT g] ++ sel) us → ∀ m : Slave,
      (m.after (us ++ [.data 0x53 (UInt8.ofNat dest.toNat) 0x51 [0x01, 0x7A, UInt8.ofNat n]])).baud = m.baud ∧
      (Named old m → (m.after (us ++ [.data 0x53 (UInt8.ofNat dest.toNat) 0x51 [0x01, 0x7A, UInt8.ofNat n]])).addr = UInt8.ofNat n) ∧
      (¬ Named old m → (m.after (us ++ [.data 0x53 (UInt8.ofNat dest.toNat) 0x51 [0x01, 0x7A, UInt8.ofNat n]])).addr = m.addr) := by
  have hsetup : ∀ x d, Act.sent x d ∈ init ++ [.sent p cp, .received RECV_TIMEOUT g] ++ sel → SetupFrame old new x := by
    intro x d hm
    simp only [List.mem_append, List.mem_cons, Act.sent.injEq, reduceCtorEq, List.not_mem_nil, or_false] at hm
    rcases hm with (hm | hm) | hm
    · exact .reset (hi x d hm)
    · rw [hm.1]; exact .ping n hn hn2 hpf
    · cases hre with
      | secondary _ hmask hs => exact .select hmask (selection_frames hs x d hm)
      | primary => cases hm
  refine ⟨hsetup, fun us hus => ?_⟩
  have hkeep : ∀ m : Slave, (m.after us).addr = m.addr ∧ (m.after us).baud = m.baud := by
    refine fun m => harmless_after (fun t htm => ?_) m
    obtain ⟨x, d, h1, h2⟩ := heard_mem hus t htm
    exact harmless_setup (hsetup x d h1) h2
  have hcmd : ∀ m : Slave, m.hear (.data 0x53 (UInt8.ofNat dest.toNat) 0x51 [0x01, 0x7A, UInt8.ofNat n]) =
      if m.Listens (UInt8.ofNat dest.toNat) then { m with addr := UInt8.ofNat n } else m := by
    intro m
    simp only [Slave.hear]
    rw [if_neg (by decide), if_neg (fun h => absurd h.2 (by decide))]
    by_cases hm : m.Listens (UInt8.ofNat dest.toNat)
    · rw [if_neg (by simpa using hm), if_pos trivial, if_pos hm]; rfl
    · rw [if_pos hm, if_neg hm]
  have hlisten : ∀ m : Slave, (m.after us).Listens (UInt8.ofNat dest.toNat) ↔ Named old m := by
    intro m
    cases hre with
    | secondary _ hmask hs =>
      have hu : (m.after us).selected = selects (addressBytes old) m.sec := by
        obtain ⟨us1, us2, rfl, h1, h2⟩ := heard_append hus
        cases hs with
        | single q c rc r _ hq hc =>
          obtain ⟨b, _, hb, hbi⟩ := hq
          rcases heard_one (carries_telegramOf hb) (by simp) h2 with ⟨_, h⟩ | rfl
          · exact absurd h hc
          · rw [m.after_append]
            show selects b (m.after us1).sec = _
            rw [m.after_sec, hbi (hid hmask)]
      have e1 : UInt8.ofNat (0xFD : Int).toNat = 0xFD := rfl
      rw [e1, Slave.Listens, if_pos rfl, hu]
      constructor
      · intro h; exact .inl ⟨hmask, h⟩
      · rintro (h | h)
        · exact h.2
        · exact absurd hmask h.1
    | primary hmask =>
      have hx : ∀ b : Byte, UInt8.ofNat (atoi old).toNat = b ↔ atoi old = b.toNat := by
        intro b
        rw [← UInt8.toNat_inj]
        simp
        omega
      have h253 := hfd hmask
      rw [Slave.Listens, if_neg (by rw [hx]; exact h253), hx, hx, hx, (hkeep m).1]
      constructor
      · intro h; exact .inr ⟨hmask, h⟩
      · rintro (h | h)
        · exact absurd h.1 hmask
        · exact h.2
  intro m
  rw [m.after_append, (m.after us).after_one, hcmd]
  refine ⟨?_, fun hm => ?_, fun hm => ?_⟩
  · rw [← (hkeep m).2]
    split <;> rfl
  · rw [if_pos ((hlisten m).mpr hm)]
  · rw [if_neg (fun h => hm ((hlisten m).mp h))]
    exact (hkeep m).1

/-- C123 for `mbus-serial-set-address`: wherever the program is killed, no meter has another baud rate; and either every meter has its
old address, or exactly the meters the user named have the new one and all others keep theirs.  No intermediate state exists. -/
theorem C123_set_address {σ : Type} (junk : Frame) (o : Ops σ) (hh : Honest o) (s : σ) (old new : List Byte) (e : Exit (σ × List Act))
    (h : setAddressTool junk o.logged (s, []) old new = .ok e)
    (hid : AddressMask old → ∀ c ∈ old.take 8, IdDigit c) (hfd : ¬ AddressMask old → atoi old ≠ 253)
    (pre post : List Act) (hp : e.state.2 = pre ++ post) (ts : List Spec.Telegram) (ht : Heard pre ts) :
    (∀ m : Slave, (m.after ts).baud = m.baud) ∧
    ((∀ m : Slave, (m.after ts).addr = m.addr) ∨
     ∃ n : Nat, atoi new = n ∧ n ≤ 252 ∧ ∀ m : Slave, (Named old m → (m.after ts).addr = UInt8.ofNat n) ∧ (¬ Named old m → (m.after ts).addr = m.addr)) := by
  have keep : (∀ t ∈ ts, KeepsMeter t) → (∀ m : Slave, (m.after ts).baud = m.baud) ∧ ((∀ m : Slave, (m.after ts).addr = m.addr) ∨
     ∃ n : Nat, atoi new = n ∧ n ≤ 252 ∧ ∀ m : Slave, (Named old m → (m.after ts).addr = UInt8.ofNat n) ∧ (¬ Named old m → (m.after ts).addr = m.addr)) :=
    fun hk => ⟨fun m => (harmless_after hk m).2, .inl fun m => (harmless_after hk m).1⟩
  rcases C89_set_address junk o hh s old new e h with ⟨hs, _, _⟩ | ⟨n, init, sel, tail, p, f, g, cp, cf, dest, hn, hn2, hd0, hd1, hi, hpf, hre, hf, hl, htail⟩
  · refine keep fun t htm => ?_
    obtain ⟨f, c, h1, h2⟩ := heard_mem ht t htm
    exact harmless_setup (hs f c (by rw [hp]; exact List.mem_append_left _ h1)) h2
  · have hn3 : ∀ g d, Act.sent g d ∉ tail := by
      rcases htail with ⟨_, rfl, _⟩ | ⟨_, rc, r, rfl, _⟩ <;> simp
    obtain ⟨hsetup, hall⟩ := setup_command (cp := cp) (g := g) hid hfd hn hn2 hd0 hd1 hi hpf hre
    rw [hl, List.append_assoc (_ ++ sel)] at hp
    rcases heard_cut (fun _ _ h h' => harmless_setup h h') hsetup (carries_telegramOf hf) hn3 hp ht with hk | ⟨us, rfl, hus⟩
    · exact keep hk
    have h2 := hall us hus
    exact ⟨fun m => (h2 m).1, .inr ⟨n, hn, hn2, fun m => (h2 m).2⟩⟩

/-- C123: after a run that reported success, the meters the user named have the new address and all others keep theirs. -/
theorem C123_success {σ : Type} (junk : Frame) (o : Ops σ) (hh : Honest o) (s : σ) (old new : List Byte) (e : Exit (σ × List Act))
    (h : setAddressTool junk o.logged (s, []) old new = .ok e)
    (hid : AddressMask old → ∀ c ∈ old.take 8, IdDigit c) (hfd : ¬ AddressMask old → atoi old ≠ 253)
    (n : Nat) (hout : e.out = [.addressSet n]) (ts : List Spec.Telegram) (ht : Heard e.state.2 ts) (m : Slave) :
    (Named old m → (m.after ts).addr = UInt8.ofNat n) ∧ (¬ Named old m → (m.after ts).addr = m.addr) := by
  rcases C89_set_address junk o hh s old new e h with ⟨_, h1, _⟩ | ⟨n', init, sel, tail, p, f, g, cp, cf, dest, hn, hn2, hd0, hd1, hi, hpf, hre, hf, hl, htail⟩
  · rw [hout] at h1; cases h1
  rcases htail with ⟨_, _, _, h1⟩ | ⟨hcf, rc, r, rfl, ha⟩
  · rw [hout] at h1; cases h1
  have hnn : n' = n := by
    rw [hout] at ha
    generalize e.code = x at ha
    cases ha
    rfl
  subst hnn
  obtain ⟨_, hall⟩ := setup_command (cp := cp) (g := g) hid hfd hn hn2 hd0 hd1 hi hpf hre
  rw [hl, List.append_assoc] at ht
  obtain ⟨us, vs, rfl, h1, h2⟩ := heard_append ht
  rcases heard_one (carries_telegramOf hf) (by simp) h2 with ⟨_, h⟩ | rfl
  · exact absurd h hcf
  · exact (hall us h1 m).2

/-- C123: if the addresses on the bus are pairwise different, the new one is free and at most one meter is named, then wherever the
program is killed, the addresses are still pairwise different. -/
theorem C123_distinct {σ : Type} (junk : Frame) (o : Ops σ) (hh : Honest o) (s : σ) (old new : List Byte) (e : Exit (σ × List Act))
    (h : setAddressTool junk o.logged (s, []) old new = .ok e)
    (hid : AddressMask old → ∀ c ∈ old.take 8, IdDigit c) (hfd : ¬ AddressMask old → atoi old ≠ 253)
    (pre post : List Act) (hp : e.state.2 = pre ++ post) (ts : List Spec.Telegram) (ht : Heard pre ts)
    (ms : List Slave) (hd : (ms.map (·.addr)).Nodup) (hfree : ∀ m ∈ ms, (m.addr.toNat : Int) ≠ atoi new)
    (hone : ms.Pairwise fun m m' => ¬ (Named old m ∧ Named old m')) :
    (ms.map fun m => (m.after ts).addr).Nodup := by
  rcases (C123_set_address junk o hh s old new e h hid hfd pre post hp ts ht).2 with h1 | ⟨n, hn, hn2, h1⟩
  · rw [List.map_congr_left (fun m _ => h1 m)]
    exact hd
  · rw [List.Nodup, List.pairwise_map] at hd ⊢
    have hall := hd.and hone
    refine hall.imp_of_mem ?_
    intro a b ha hb ⟨h2, h3⟩
    have hne : ∀ m ∈ ms, m.addr ≠ UInt8.ofNat n := by
      intro m hm h
      refine hfree m hm ?_
      rw [h, hn]
      simp
      omega
    by_cases ka : Named old a <;> by_cases kb : Named old b
    · exact absurd ⟨ka, kb⟩ h3
    · rw [(h1 a).1 ka, (h1 b).2 kb]
      exact fun h => hne b hb h.symm
    · rw [(h1 a).2 ka, (h1 b).1 kb]
      exact hne a ha
    · rw [(h1 a).2 ka, (h1 b).2 kb]
      exact h2

/-- a handle on which everything can be sent, the first receive finds silence and the others an acknowledge -/
def obliging : Ops Nat where
  send s f := .ok (0, f, s)
  recv s f := if s = 0 then .ok (RECV_TIMEOUT, f, 1) else .ok (RECV_OK, { f with type := 1 }, s + 1)
  purge s := .ok (0, s)
  progress s _ := s
  found s _ _ := s

theorem obliging_honest : Honest obliging := by
  intro s f c g s' hf h hc
  simp only [obliging] at h
  split at h
  · cases h; exact hf
  · cases h; exact absurd rfl hc

/-- the meter at address 3 is moved to address 5 -/
theorem obliging_run : ∃ e, setAddressTool Frame.zero obliging.logged (0, []) (cs! "3") (cs! "5") = .ok e ∧ e.out = [.addressSet 5] ∧ e.state.2.length = 8 := by
  have h : (match setAddressTool Frame.zero obliging.logged (0, []) (cs! "3") (cs! "5") with
      | .ok ⟨_, [.addressSet 5], _, log⟩ => log.length == 8
      | _ => false) = true := by decide +kernel
  generalize setAddressTool Frame.zero obliging.logged (0, []) (cs! "3") (cs! "5") = x at h ⊢
  split at h
  · exact ⟨_, rfl, rfl, by simpa using h⟩
  · cases h

theorem heard_total {l : List Act} (h : ∀ f c, Act.sent f c ∈ l → ∃ t, telegramOf f = some t) : ∃ ts, Heard l ts := by
  induction l with
  | nil => exact ⟨[], .nil⟩
  | cons a l ih =>
    obtain ⟨ts, ht⟩ := ih fun f c hm => h f c (List.mem_cons_of_mem _ hm)
    cases a with
    | sent f c =>
      obtain ⟨t, h1⟩ := h f c (List.mem_cons_self ..)
      exact ⟨t :: ts, .arrived f c t l ts h1 ht⟩
    | received c f => exact ⟨ts, .quiet _ l ts (by simp) ht⟩
    | purged r => exact ⟨ts, .quiet _ l ts (by simp) ht⟩
    | progress m => exact ⟨ts, .quiet _ l ts (by simp) ht⟩
    | found a f => exact ⟨ts, .quiet _ l ts (by simp) ht⟩

/-- two meters on a bus: at address 3 and at address 7 -/
def twoSlaves : List Slave := [⟨3, [0x78, 0x56, 0x34, 0x12, 0x24, 0x40, 1, 7], false, 2400⟩, ⟨7, [0x79, 0x56, 0x34, 0x12, 0x24, 0x40, 1, 7], true, 2400⟩]

/-- the second one is selected, and moved by the telegrams that select the first one and assign address 5 only if the selection is missed -/
example :
    (twoSlaves.map fun m => (m.after [.short 0x40 0xFD, .short 0x40 0xFF, .data 0x73 0xFD 0x52 [0x78, 0x56, 0x34, 0x12, 0xFF, 0xFF, 0xFF, 0xFF], .data 0x53 0xFD 0x51 [1, 0x7A, 5]]).addr) = [5, 7] ∧
    (twoSlaves.map fun m => (m.after [.data 0x53 0xFD 0x51 [1, 0x7A, 5]]).addr) = [3, 5] ∧
    (twoSlaves.map fun m => (m.after [.data 0x53 7 0xBD []]).baud) = [2400, 9600] := by decide

theorem named_three (m : Slave) : Named (cs! "3") m ↔ m.addr = 3 := by
  have h1 : ¬ AddressMask (cs! "3") := fun h => absurd h.1 (by decide)
  have h2 : atoi (cs! "3") = 3 := by decide
  unfold Named
  rw [h2, ← UInt8.toNat_inj]
  constructor
  · rintro (h | ⟨_, h | h | h⟩)
    · exact absurd h.1 h1
    · show m.addr.toNat = 3; omega
    · exact absurd h (by decide)
    · exact absurd h (by decide)
  · intro h
    exact .inr ⟨h1, .inl (by rw [h]; rfl)⟩

/-- killed after any number of calls of the run that moves the meter at address 3 to 5, the meters on the bus of two have
addresses 3 and 7 or 5 and 7; after the whole run, 5 and 7 -/
example : ∃ e, setAddressTool Frame.zero obliging.logged (0, []) (cs! "3") (cs! "5") = .ok e ∧
    (∀ k ts, Heard (e.state.2.take k) ts → (twoSlaves.map fun m => (m.after ts).addr).Nodup ∧ ∀ m : Slave, (m.after ts).baud = m.baud) ∧
    ∀ ts, Heard e.state.2 ts → (twoSlaves.map fun m => (m.after ts).addr) = [5, 7] := by
  obtain ⟨e, h, h1, h2⟩ := obliging_run
  have hid : AddressMask (cs! "3") → ∀ c ∈ (cs! "3").take 8, IdDigit c := fun h => absurd h.1 (by decide)
  have hfd : ¬ AddressMask (cs! "3") → atoi (cs! "3") ≠ 253 := fun _ => by decide
  refine ⟨e, h, fun k ts ht => ⟨?_, ?_⟩, fun ts ht => ?_⟩
  · refine C123_distinct Frame.zero obliging obliging_honest 0 _ _ e h hid hfd _ (e.state.2.drop k) (List.take_append_drop ..).symm ts ht twoSlaves (by decide) ?_ ?_
    · rw [show atoi (cs! "5") = 5 by decide]; decide
    · simp only [named_three]; decide
  · exact (C123_set_address Frame.zero obliging obliging_honest 0 _ _ e h hid hfd _ (e.state.2.drop k) (List.take_append_drop ..).symm ts ht).1
  · have hs := C123_success Frame.zero obliging obliging_honest 0 _ _ e h hid hfd 5 h1 ts ht
    simp only [named_three] at hs
    simp only [twoSlaves, List.map_cons, List.map_nil]
    rw [(hs ⟨3, _, _, _⟩).1 rfl, (hs ⟨7, _, _, _⟩).2 (by decide)]
    rfl

/-- the tools that read never change a meter, for the same bus -/
example (k : Kind) (env : Env) (b : Bus) (e : Exit (Bus × List Act))
    (h : scanTool ((busLink k env).ops PURGE_M2S).logged Settings.default (b, []) 3 = .ok e) (i : Nat) (ts : List Spec.Telegram) (ht : Heard (e.state.2.take i) ts) :
    ∀ m ∈ twoSlaves, (m.after ts).addr = m.addr :=
  fun m _ => (C123_primary_scan _ (bus_honest k env PURGE_M2S (by decide)) Settings.default b 3 e h _ (e.state.2.drop i) (List.take_append_drop ..).symm ts ht m).1

end Mbus
