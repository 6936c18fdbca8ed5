import Verif.Lemmas.SessionMem
import Verif.Lemmas.SelectWire
import Verif.Props.Sendrecv
import Verif.Props.ToolSelect
/-
Property theorems C103 (memory of the commands), C104 (memory of probing and scanning), C105 (memory of a request).
-/
namespace Mbus
open Spec

/-! ### C103 -/

/-- What a command does to the heap, compared with the command when memory is plentiful. -/
structure CmdFacts {σ : Type} (s : σ) (m : Mem) (x : C (Int × σ)) (y : C ((Int × σ) × Mem)) : Prop where
  fault : ∀ e, y = .error e → x = .error e
  result : ∀ r s' m', y = .ok ((r, s'), m') → Kept m m' [] ∧ (x = .ok (r, s') ∨ (r = -1 ∧ s' = s ∧ NextFails m))
  granted : ¬ NextFails m → ∀ q, x = .ok q → ∃ m', y = .ok (q, m')

theorem cmd_refuse {σ : Type} (s : σ) (m : Mem) (r : Int) : CmdFacts s m (.ok (r, s)) (.ok ((r, s), m)) := by
  refine ⟨fun e h => (by cases h), fun r' s' m' h => ?_, fun _ q h => ⟨m, by cases h; rfl⟩⟩
  injection h with h
  injection h with h1 h2
  injection h1 with h3 h4
  subst h2; subst h3; subst h4
  exact ⟨⟨[], Grown.refl m, .nil⟩, .inl rfl⟩

theorem cmd_frame {σ : Type} (s : σ) {m : Mem} (hm : MemOk m) (x : C (Int × σ)) : CmdFacts s m x (withFrame s m x) := by
  unfold withFrame
  unfold Mem.alloc
  by_cases hn : NextFails m
  · have hh : m.answers.headD true = false := by
      unfold NextFails at hn
      cases ha : m.answers with
      | nil => rw [ha] at hn; cases hn
      | cons b l => rw [ha] at hn; injection hn with hn
    rw [hh, if_neg (by decide)]
    refine ⟨fun e h => (by cases h), fun r' s' m' h => ?_, fun h => absurd hn h⟩
    injection h with h
    injection h with h1 h2
    injection h1 with h3 h4
    subst h2; subst h3; subst h4
    exact ⟨⟨[], ⟨rfl, by simp, by simp, by simp, Nat.le_refl _⟩, .nil⟩, .inr ⟨rfl, rfl, hn⟩⟩
  · have hh : m.answers.headD true = true := by
      unfold NextFails at hn
      cases ha : m.answers with
      | nil => rfl
      | cons b l =>
        rw [ha] at hn
        cases b with
        | true => rfl
        | false => exact absurd rfl hn
    rw [if_pos hh]
    have g : Grown m { next := m.next + 1, live := (m.next, []) :: m.live, answers := m.answers.tail } [(m.next, [])] := ⟨rfl, by simp, by simp, by simp, by simp⟩
    dsimp only
    cases hx : x with
    | error e => exact ⟨fun e' h => (by cases h; rfl), fun r' s' m' h => (by cases h), fun _ q h => (by cases h)⟩
    | ok q =>
      obtain ⟨r, s1⟩ := q
      obtain ⟨m2, h2, g2, _⟩ := free_grown hm g m.next (by simp)
      rw [ok_bind]
      dsimp only
      rw [h2, ok_bind]
      refine ⟨fun e h => (by cases h), fun r' s' m' h => ?_, fun _ q h => ⟨m2, by cases h; rfl⟩⟩
      injection h with h
      injection h with h1 h2
      injection h1 with h3 h4
      subst h2; subst h3; subst h4
      exact ⟨⟨_, g2, by simp⟩, .inl rfl⟩

theorem cmd_facts {σ : Type} (o : Ops σ) (s : σ) {m : Mem} (hm : MemOk m) (c : Cmd) : CmdFacts s m (c.plain o s) (c.run o s m) := by
  have hud : ∀ a d n, CmdFacts s m (sendUserData o s a d n) (sendUserDataOwned o s m a d n) := by
    intro a d n
    unfold sendUserDataOwned
    by_cases h1 : isPrimaryAddress a = false
    · rw [if_pos h1]
      unfold sendUserData
      rw [if_pos h1]
      exact cmd_refuse s m _
    rw [if_neg h1]
    by_cases h2 : n > 252 ∨ n = 0
    · rw [if_pos h2]
      unfold sendUserData
      rw [if_neg h1, if_pos h2]
      exact cmd_refuse s m _
    rw [if_neg h2]
    exact cmd_frame s hm _
  cases c with
  | request a =>
    show CmdFacts s m (sendRequest o s a) (sendRequestOwned o s m a)
    unfold sendRequestOwned
    by_cases h1 : isPrimaryAddress a = false
    · rw [if_pos h1]
      unfold sendRequest
      rw [if_pos h1]
      exact cmd_refuse s m _
    · rw [if_neg h1]; exact cmd_frame s hm _
  | ping a p =>
    show CmdFacts s m (sendPing o s a p) (sendPingOwned o s m a p)
    unfold sendPingOwned
    by_cases h1 : isPrimaryAddress a = false
    · rw [if_pos h1]
      unfold sendPing
      rw [if_pos h1]
      exact cmd_refuse s m _
    · rw [if_neg h1]; exact cmd_frame s hm _
  | baudrate a b =>
    show CmdFacts s m (sendBaud o s a b) (sendBaudOwned o s m a b)
    unfold sendBaudOwned
    by_cases h1 : isPrimaryAddress a = false
    · rw [if_pos h1]
      unfold sendBaud
      rw [if_pos h1]
      exact cmd_refuse s m _
    rw [if_neg h1]
    cases hb : baudCode b with
    | none =>
      unfold sendBaud
      rw [if_neg h1, hb]
      exact cmd_refuse s m _
    | some ci => exact cmd_frame s hm _
  | reset a c =>
    show CmdFacts s m (sendAppReset o s a c) (sendAppResetOwned o s m a c)
    unfold sendAppResetOwned
    by_cases h1 : isPrimaryAddress a = false
    · rw [if_pos h1]
      unfold sendAppReset
      rw [if_pos h1]
      exact cmd_refuse s m _
    rw [if_neg h1]
    by_cases h2 : c > 0xFF
    · rw [if_pos h2]
      unfold sendAppReset
      rw [if_neg h1, if_pos h2]
      exact cmd_refuse s m _
    · rw [if_neg h2]; exact cmd_frame s hm _
  | userData a d n => exact hud a d n
  | setAddress a b =>
    show CmdFacts s m (setPrimaryAddress o s a b) (setPrimaryAddressOwned o s m a b)
    unfold setPrimaryAddressOwned setPrimaryAddress
    by_cases h1 : isPrimaryAddress b = false
    · rw [if_pos h1, if_pos h1]; exact cmd_refuse s m _
    rw [if_neg h1, if_neg h1]
    by_cases h2 : b = 0xFD ∨ b = 0xFE ∨ b = 0xFF
    · rw [if_pos h2, if_pos h2]; exact cmd_refuse s m _
    rw [if_neg h2, if_neg h2]
    exact hud _ _ _
  | select x => exact cmd_frame s hm _

/-- C103: whatever the link does and whatever the operating system answers to allocations, every command leaves the heap exactly as it
was (nothing leaked, nothing released twice), and it does what it does when memory is plentiful, except that with a refused
allocation it may return -1 without having touched the link. -/
theorem C103_commands_release {σ : Type} (o : Ops σ) (s : σ) (m : Mem) (hm : MemOk m) (c : Cmd) :
    (∀ e, c.run o s m = .error e → c.plain o s = .error e) ∧
    (∀ r s' m', c.run o s m = .ok ((r, s'), m') →
      Kept m m' [] ∧ (c.plain o s = .ok (r, s') ∨ (r = -1 ∧ s' = s ∧ NextFails m))) :=
  ⟨(cmd_facts o s hm c).fault, (cmd_facts o s hm c).result⟩

/-- C103: with a granted allocation the command succeeds whenever it does with plentiful memory. -/
theorem C103_granted {σ : Type} (o : Ops σ) (s : σ) (m : Mem) (hm : MemOk m) (c : Cmd) (hn : ¬ NextFails m) (q : Int × σ)
    (h : c.plain o s = .ok q) : ∃ m', c.run o s m = .ok (q, m') :=
  (cmd_facts o s hm c).granted hn q h

/-- C103: with a refused allocation no command transmits anything: the link state is unchanged, and the result is -1 or that of a
command refused for its arguments. -/
theorem C103_refused {σ : Type} (o : Ops σ) (s : σ) (m : Mem) (hm : MemOk m) (c : Cmd) (hn : NextFails m) :
    ∃ r m', c.run o s m = .ok ((r, s), m') ∧ Kept m m' [] ∧ (r = -1 ∨ c.plain o s = .ok (r, s)) := by
  have hf : ∀ x : C (Int × σ), ∃ m', withFrame s m x = .ok ((-1, s), m') ∧ Kept m m' [] := by
    intro x
    unfold withFrame Mem.alloc
    have hh : m.answers.headD true = false := by
      unfold NextFails at hn
      cases ha : m.answers with
      | nil => rw [ha] at hn; cases hn
      | cons b l => rw [ha] at hn; injection hn with hn
    rw [hh, if_neg (by decide)]
    exact ⟨_, rfl, [], ⟨rfl, by simp, by simp, by simp, Nat.le_refl _⟩, .nil⟩
  have key : ∀ y : C ((Int × σ) × Mem), (∃ r, y = .ok ((r, s), m)) ∨ (∃ x, y = withFrame s m x) → ∃ r m', y = .ok ((r, s), m') := by
    rintro y (⟨r, h⟩ | ⟨x, h⟩)
    · exact ⟨r, m, h⟩
    · obtain ⟨m', h', _⟩ := hf x
      exact ⟨-1, m', by rw [h, h']⟩
  have hud : ∀ a d n, (∃ r, sendUserDataOwned o s m a d n = .ok ((r, s), m)) ∨ (∃ x, sendUserDataOwned o s m a d n = withFrame s m x) := by
    intro a d n
    unfold sendUserDataOwned
    split
    · exact .inl ⟨_, rfl⟩
    split
    · exact .inl ⟨_, rfl⟩
    · exact .inr ⟨_, rfl⟩
  have hrun : ∃ r m', c.run o s m = .ok ((r, s), m') := by
    apply key
    cases c with
    | request a =>
      show (∃ r, sendRequestOwned o s m a = .ok ((r, s), m)) ∨ ∃ x, sendRequestOwned o s m a = withFrame s m x
      unfold sendRequestOwned
      split
      · exact .inl ⟨_, rfl⟩
      · exact .inr ⟨_, rfl⟩
    | ping a p =>
      show (∃ r, sendPingOwned o s m a p = .ok ((r, s), m)) ∨ ∃ x, sendPingOwned o s m a p = withFrame s m x
      unfold sendPingOwned
      split
      · exact .inl ⟨_, rfl⟩
      · exact .inr ⟨_, rfl⟩
    | baudrate a b =>
      show (∃ r, sendBaudOwned o s m a b = .ok ((r, s), m)) ∨ ∃ x, sendBaudOwned o s m a b = withFrame s m x
      unfold sendBaudOwned
      split
      · exact .inl ⟨_, rfl⟩
      · split
        · exact .inl ⟨_, rfl⟩
        · exact .inr ⟨_, rfl⟩
    | reset a b =>
      show (∃ r, sendAppResetOwned o s m a b = .ok ((r, s), m)) ∨ ∃ x, sendAppResetOwned o s m a b = withFrame s m x
      unfold sendAppResetOwned
      split
      · exact .inl ⟨_, rfl⟩
      · split
        · exact .inl ⟨_, rfl⟩
        · exact .inr ⟨_, rfl⟩
    | userData a d n => exact hud a d n
    | setAddress a b =>
      show (∃ r, setPrimaryAddressOwned o s m a b = .ok ((r, s), m)) ∨ ∃ x, setPrimaryAddressOwned o s m a b = withFrame s m x
      unfold setPrimaryAddressOwned
      split
      · exact .inl ⟨_, rfl⟩
      · split
        · exact .inl ⟨_, rfl⟩
        · exact hud _ _ _
    | select x => exact .inr ⟨_, rfl⟩
  obtain ⟨r, m', h⟩ := hrun
  obtain ⟨a1, a2⟩ := (C103_commands_release o s m hm c).2 r s m' h
  refine ⟨r, m', h, a1, ?_⟩
  rcases a2 with a2 | a2
  · exact .inr a2
  · exact .inl a2.1

/-- C103 on a heap with a block in use: a request frame is allocated and released; with a refused allocation nothing is sent. -/
example (k : Kind) (env : Env) (ho : IsOpen k env) (hw : Writable env) (purge : Int) :
    (∃ m', (Cmd.request 5).run ((busLink k env).ops purge) ⟨[], []⟩ ⟨8, [(7, [1, 2])], [true]⟩ =
      .ok ((0, ⟨env.respond [(Spec.Telegram.short 0x5B 5).wire], [(Spec.Telegram.short 0x5B 5).wire]⟩), m')) ∧
    ∃ m', (Cmd.request 5).run ((busLink k env).ops purge) ⟨[], []⟩ ⟨8, [(7, [1, 2])], [false]⟩ = .ok ((-1, ⟨[], []⟩), m') := by
  refine ⟨C103_granted _ _ _ ⟨by simp, by simp⟩ _ (by unfold NextFails; simp) _ (bus_sendRequest k env ho hw purge [] 5 (by omega)), ?_⟩
  obtain ⟨r, m', h1, h2, h3⟩ := C103_refused ((busLink k env).ops purge) ⟨[], []⟩ ⟨8, [(7, [1, 2])], [false]⟩ ⟨by simp, by simp⟩ (.request 5) rfl
  refine ⟨m', ?_⟩
  rcases h3 with h3 | h3
  · rw [h1, h3]
  · rw [show (Cmd.request 5).plain ((busLink k env).ops purge) ⟨[], []⟩ = _ from bus_sendRequest k env ho hw purge [] 5 (by omega)] at h3
    injection h3 with h3
    injection h3 with h3 h4
    injection h4 with h5 h6
    cases h6

/-! ### C104 -/

/-- C104: probing a mask leaves the heap exactly as it was, whatever arrives and whatever the operating system answers to allocations
(the only undefined behaviour is that of the record parser, C27). -/
theorem C104_probe_releases (k : Kind) (env : Env) (purge : Int) (st : Settings) (b : Bus) (m : Mem) (hm : MemOk m) (mask : List Byte) :
    (∀ e, probeSecondaryOwned ((busLink k env).ops purge) st b m mask = .error e → ParserFault e) ∧
    (∀ q m', probeSecondaryOwned ((busLink k env).ops purge) st b m mask = .ok (q, m') → Kept m m' []) := by
  have h := probe_frugal (bus_behaves k env purge) st b hm mask
  refine ⟨h.fault, fun q m' hq => ?_⟩
  obtain ⟨news, g, hn⟩ := h.mem q m' hq
  have : news = [] := List.eq_nil_iff_forall_not_mem.mpr (fun z hz => hn z hz)
  rw [this] at g
  exact ⟨[], g, .nil⟩

/-- C104: with granted allocations probing is what it is without heap. -/
theorem C104_probe_same (k : Kind) (env : Env) (purge : Int) (st : Settings) (b : Bus) (m : Mem) (hm : MemOk m) (hg : Granting m) (mask : List Byte)
    (q : Int × Option (List Byte) × Bus) :
    (∃ m', probeSecondaryOwned ((busLink k env).ops purge) st b m mask = .ok (q, m')) ↔ probeSecondary ((busLink k env).ops purge) st b mask = .ok q := by
  have h := (probe_frugal (bus_behaves k env purge) st b hm mask).same hg
  constructor
  · rintro ⟨m', hq⟩; exact (h.1 _ _ hq).1
  · intro hq
    cases hy : probeSecondaryOwned ((busLink k env).ops purge) st b m mask with
    | error e => rw [h.2 e hy] at hq; cases hq
    | ok y =>
      obtain ⟨y1, m'⟩ := y
      rw [(h.1 _ _ hy).1] at hq
      injection hq with hq
      exact ⟨m', by rw [hq]⟩

/-- C104 (what holds): a scan leaves on the heap nothing but copies of address masks, whatever arrives and whatever the operating system
answers. Missing: that it leaves nothing, see the violation. -/
theorem C104_scan_leaves_masks_partial (k : Kind) (env : Env) (purge : Int) (st : Settings) (b : Bus) (m : Mem) (hm : MemOk m) (pos : Int) (mask : List Byte) :
    (∀ e, scanRangeOwned ((busLink k env).ops purge) st b m pos mask = .error e → ParserFault e) ∧
    (∀ q m', scanRangeOwned ((busLink k env).ops purge) st b m pos mask = .ok (q, m') → ∃ news, Grown m m' news ∧ ∀ z ∈ news, MaskCopy z) := by
  have h := scan_frugal (bus_behaves k env purge) st (fun _ => True) (fun _ _ _ _ _ => trivial) b m hm pos mask trivial
  refine ⟨h.fault, fun q m' hq => ?_⟩
  obtain ⟨news, g, hn⟩ := h.mem q m' hq
  exact ⟨news, g, fun z hz => (hn z hz).1⟩

/-- C104: with granted allocations a scan is what it is without heap. -/
theorem C104_scan_same (k : Kind) (env : Env) (purge : Int) (st : Settings) (b : Bus) (m : Mem) (hm : MemOk m) (hg : Granting m) (pos : Int) (mask : List Byte)
    (q : Int × Bus) :
    (∃ m', scanRangeOwned ((busLink k env).ops purge) st b m pos mask = .ok (q, m')) ↔ scanRange ((busLink k env).ops purge) st b pos mask = .ok q := by
  have h := (scan_frugal (bus_behaves k env purge) st (fun _ => True) (fun _ _ _ _ _ => trivial) b m hm pos mask trivial).same hg
  constructor
  · rintro ⟨m', hq⟩; exact (h.1 _ _ hq).1
  · intro hq
    cases hy : scanRangeOwned ((busLink k env).ops purge) st b m pos mask with
    | error e => rw [h.2 e hy] at hq; cases hq
    | ok y =>
      obtain ⟨y1, m'⟩ := y
      rw [(h.1 _ _ hy).1] at hq
      injection hq with hq
      exact ⟨m', by rw [hq]⟩

/-- C104: when there is no memory for the copy of the mask, the scan reports -1 at once: nothing is sent and nothing is left. -/
theorem C104_scan_refused {σ : Type} (o : Ops σ) (st : Settings) (s : σ) (m : Mem) (hn : NextFails m) (mask : List Byte) (hl : mask.length = 16) (pos : Nat) (hpos : pos < 16) :
    ∃ m', scanRangeOwned o st s m pos mask = .ok ((-1, s), m') ∧ m'.live = m.live := by
  unfold scanRangeOwned
  rw [if_neg (by omega), if_neg (by omega), show 16 - (pos : Int).toNat = (15 - pos) + 1 by omega]
  unfold scanAtOwned
  have hal : ∃ m', m.alloc (mask ++ [0]) = (none, m') ∧ m'.live = m.live := by
    unfold NextFails at hn
    unfold Mem.alloc
    cases h : m.answers with
    | nil => rw [h] at hn; cases hn
    | cons b l => rw [h] at hn; injection hn with hn; subst hn; exact ⟨_, rfl, rfl⟩
  obtain ⟨m', hal, hl⟩ := hal
  rw [hal]
  exact ⟨m', rfl, hl⟩

example : NextFails ⟨0, [], [false, true]⟩ ∧ (cs! "FFFFFFFFFFFFFFFF").length = 16 := ⟨rfl, rfl⟩

theorem bus_sendSelect_script (k : Kind) (env : Env) (ho : IsOpen k env) (hw : Writable env) (purge : Int) (b : Bus) (mask : List Byte) (hm : AddressMask mask) :
    ∃ b', sendSelect ((busLink k env).ops purge) b mask = .ok (0, b') := by
  obtain ⟨d, h1, h2⟩ := selectPack_eq (frameNew TYPE_LONG) mask hm.1 hm.2
  have hlen := selBytes_length mask hm
  have hp := packs_long 0x73 0xFD 0x52 d 8 (by omega)
  rw [h2] at hp
  have hs := bus_send k env ho b _ _ (show Spec.Telegram.Legal (.data 0x73 0xFD 0x52 (selBytes mask)) from ⟨(by decide : (0x73 : Byte) ∈ dataCodes), by omega⟩) hp
  unfold sendSelect
  rw [h1, ok_bind]
  simp only
  rw [if_neg (by decide)]
  refine ⟨busAfter env b (Spec.Telegram.data 0x73 0xFD 0x52 (selBytes mask)).wire, ?_⟩
  show ((busLink k env).send b _ >>= _) = _
  rw [hs, hw, if_pos rfl, ok_bind]
  rfl

/-- On a bus that accepts every write no probe of a proper mask fails. -/
theorem probe_no_error (k : Kind) (env : Env) (ho : IsOpen k env) (hw : Writable env) (purge : Int) (st : Settings) (b : Bus) (mask : List Byte) (hm : AddressMask mask)
    (q : Int × Option (List Byte) × Bus) (h : probeSecondary ((busLink k env).ops purge) st b mask = .ok q) :
    q.1 = PROBE_SINGLE ∨ q.1 = PROBE_COLLISION ∨ q.1 = PROBE_NOTHING := by
  have hsel : ∀ b r b', selectSecondary ((busLink k env).ops purge) b mask = .ok (r, b') → r = PROBE_SINGLE ∨ r = PROBE_COLLISION ∨ r = PROBE_NOTHING := by
    intro b r b' h
    rw [selectSecondary_alt, if_neg (by have := hm.1; omega)] at h
    obtain ⟨b1, h1⟩ := bus_sendSelect_script k env ho hw purge b mask hm
    rw [h1, ok_bind] at h
    dsimp only at h
    rw [if_neg (by decide)] at h
    unfold selectReply at h
    obtain ⟨⟨c, g, b2⟩, h2, h⟩ := bind_eq_ok.mp h
    dsimp only at h
    split at h
    · cases h; simp
    split at h
    · obtain ⟨⟨p, b3⟩, h3, h⟩ := bind_eq_ok.mp h
      cases h; simp
    split at h
    · obtain ⟨⟨p, b3⟩, h3, h⟩ := bind_eq_ok.mp h
      dsimp only at h
      split at h <;> cases h <;> simp
    · cases h; simp
  have hsd : ∀ b q, probeSelected ((busLink k env).ops purge) b = .ok q → q.1 = PROBE_SINGLE ∨ q.1 = PROBE_COLLISION ∨ q.1 = PROBE_NOTHING := by
    intro b q h
    rw [probeSelected_alt] at h
    obtain ⟨sc, se⟩ := b
    rw [bus_sendRequest_script k env ho hw purge sc se, ok_bind] at h
    dsimp only at h
    rw [if_neg (by decide)] at h
    unfold probeReply at h
    obtain ⟨⟨c, g, b2⟩, h2, h⟩ := bind_eq_ok.mp h
    dsimp only at h
    split at h
    · cases h; simp
    split at h
    · obtain ⟨⟨p, b3⟩, h3, h⟩ := bind_eq_ok.mp h
      cases h; simp
    · obtain ⟨⟨p, b3⟩, h3, h⟩ := bind_eq_ok.mp h
      dsimp only at h
      split at h
      · cases h; simp
      split at h
      · obtain ⟨a, h4, h⟩ := bind_eq_ok.mp h
        cases a <;> cases h <;> simp
      · cases h; simp
  unfold probeSecondary at h
  rw [if_neg (by have := hm.1; omega)] at h
  have hloop : ∀ n (ret : Int) b, (ret = PROBE_SINGLE ∨ ret = PROBE_COLLISION ∨ ret = PROBE_NOTHING) →
      ∀ q, probeLoop ((busLink k env).ops purge) b mask ret n = .ok q → q.1 = PROBE_SINGLE ∨ q.1 = PROBE_COLLISION ∨ q.1 = PROBE_NOTHING := by
    intro n
    induction n with
    | zero => intro ret b hret q h; cases h; exact hret
    | succ n ih =>
      intro ret b hret q h
      unfold probeLoop at h
      obtain ⟨⟨r, b1⟩, h1, h⟩ := bind_eq_ok.mp h
      dsimp only at h
      have hr := hsel _ _ _ h1
      split at h
      · exact hsd _ _ h
      split at h
      · cases h; exact hr
      · exact ih r b1 hr q h
  exact hloop _ _ _ (.inr (.inr rfl)) q h

/-- C104 (what holds): on an open handle that accepts every write, with granted allocations, a scan of a proper address mask leaves the
heap exactly as it was. Missing: failing writes and refused allocations, see the violations. -/
theorem C104_scan_releases_partial (k : Kind) (env : Env) (ho : IsOpen k env) (hw : Writable env) (purge : Int) (st : Settings) (b : Bus) (m : Mem) (hm : MemOk m)
    (hg : Granting m) (pos : Int) (mask : List Byte) (ha : AddressMask mask) (q : Int × Bus) (m' : Mem)
    (h : scanRangeOwned ((busLink k env).ops purge) st b m pos mask = .ok (q, m')) : Kept m m' [] := by
  have hP : ∀ mask pos d, AddressMask mask → d ∈ decimalDigits → AddressMask (mask.set pos d) := by
    intro mask pos d hx hd
    refine ⟨by simp [hx.1], fun c hc => ?_⟩
    rcases List.mem_or_eq_of_mem_set hc with h | h
    · exact hx.2 c h
    · rw [h]
      exact (by decide +kernel : ∀ d ∈ decimalDigits, IsHex d) d hd
  have hf := scan_frugal (bus_behaves k env purge) st AddressMask hP b m hm pos mask ha
  obtain ⟨news, g, hn⟩ := hf.mem q m' h
  have hclean : Clean ((busLink k env).ops purge) st AddressMask m := ⟨hg, fun s mask q hm h => probe_no_error k env ho hw purge st s mask hm q h⟩
  have : news = [] := List.eq_nil_iff_forall_not_mem.mpr (fun z hz => (hn z hz).2 hclean)
  rw [this] at g
  exact ⟨[], g, .nil⟩

/-- A scan whose first probe fails. -/
theorem scan_leaks {σ : Type} (o : Ops σ) (st : Settings) (s : σ) (m m1 : Mem) (mask : List Byte) (hl : mask.length = 16) (pos : Nat) (hpos : pos < 16)
    (hwild : mask.getD pos 0 = 102 ∨ mask.getD pos 0 = 70) (ha : m.alloc (mask ++ [0]) = (some m.next, m1)) (g : Grown m m1 [(m.next, mask ++ [0])])
    (s' : σ) (a : Option (List Byte)) (m2 : Mem)
    (hp : probeSecondaryOwned o st (o.progress s (mask.set pos 48)) m1 (mask.set pos 48) = .ok ((PROBE_ERROR, a, s'), m2)) (hk : Kept m1 m2 []) :
    scanRangeOwned o st s m pos mask = .ok ((-1, s'), m2) ∧ Grown m m2 [(m.next, mask ++ [0])] := by
  refine ⟨?_, ?_⟩
  · unfold scanRangeOwned
    rw [if_neg (by omega), if_neg (by omega), show (16 - (pos : Int).toNat) = (15 - pos) + 1 by omega]
    unfold scanAtOwned
    rw [ha]
    dsimp only
    unfold scanBody
    rw [show 15 - (15 - pos) = pos by omega]
    have hi : pos < mask.length := by omega
    rw [rd_ok hi, ok_bind]
    dsimp only
    have hw : mask[pos] = 102 ∨ mask[pos] = 70 := by
      rw [List.getD_eq_getElem?_getD, List.getElem?_eq_getElem hi] at hwild
      exact hwild
    rw [if_pos hw]
    unfold decimalDigits scanLoopOwned
    rw [hp, ok_bind]
    dsimp only
    rw [if_neg (by decide), if_neg (by decide), if_neg (by decide), ok_bind]
    unfold scanEnd
    rw [if_pos rfl]
  · obtain ⟨news, g2, hn⟩ := hk
    have : news = [] := by
      cases news with
      | nil => rfl
      | cons x l => exact absurd hn.length_eq (by simp)
    rw [this] at g2
    exact g.trans g2

/-- C104 is violated: when the handle refuses to write, a scan of any proper mask with a wildcard at its position leaves the copy of the
mask behind. -/
theorem C104_write_violation (k : Kind) (env : Env) (ho : IsOpen k env) (hw : ∀ sent n, env.wret sent n ≠ (n : Int)) (purge : Int) (st : Settings)
    (hst : 0 ≤ st.maxSearchRetry) (b : Bus) (m : Mem) (hm : MemOk m) (hg : Granting m) (mask : List Byte) (ha : AddressMask mask) (pos : Nat) (hpos : pos < 16)
    (hwild : mask.getD pos 0 = 102 ∨ mask.getD pos 0 = 70) :
    ∃ b' m', scanRangeOwned ((busLink k env).ops purge) st b m pos mask = .ok ((-1, b'), m') ∧ Grown m m' [(m.next, mask ++ [0])] := by
  rcases alloc_cases m (mask ++ [0]) with ⟨m1, h, g, hg1⟩ | ⟨m1, h, g, hng⟩
  · have ha' : AddressMask (mask.set pos 48) := by
      refine ⟨by simp [ha.1], fun c hc => ?_⟩
      rcases List.mem_or_eq_of_mem_set hc with h | h
      · exact ha.2 c h
      · rw [h]; decide +kernel
    have hsel : ∃ b', sendSelect ((busLink k env).ops purge) b (mask.set pos 48) = .ok (-1, b') := by
      obtain ⟨d, h1, h2⟩ := selectPack_eq (frameNew TYPE_LONG) (mask.set pos 48) ha'.1 ha'.2
      have hlen := selBytes_length (mask.set pos 48) ha'
      have hp := packs_long 0x73 0xFD 0x52 d 8 (by omega)
      rw [h2] at hp
      have hs := bus_send k env ho b _ _ (show Spec.Telegram.Legal (.data 0x73 0xFD 0x52 (selBytes (mask.set pos 48))) from ⟨(by decide : (0x73 : Byte) ∈ dataCodes), by omega⟩) hp
      unfold sendSelect
      rw [h1, ok_bind]
      simp only
      rw [if_neg (by decide)]
      refine ⟨busAfter env b (Spec.Telegram.data 0x73 0xFD 0x52 (selBytes (mask.set pos 48))).wire, ?_⟩
      show ((busLink k env).send b _ >>= _) = _
      rw [hs, if_neg (hw _ _), ok_bind]
      rfl
    obtain ⟨b', hsel⟩ := hsel
    have hprobe : probeSecondary ((busLink k env).ops purge) st b (mask.set pos 48) = .ok (PROBE_ERROR, none, b') := by
      unfold probeSecondary
      rw [if_neg (by have := ha'.1; omega), show (st.maxSearchRetry + 1).toNat = st.maxSearchRetry.toNat + 1 by omega]
      unfold probeLoop
      rw [selectSecondary_alt, if_neg (by have := ha'.1; omega), hsel, ok_bind]
      rfl
    obtain ⟨m2, h2⟩ := (C104_probe_same k env purge st b m1 (g.ok hm) (hg1 hg) (mask.set pos 48) _).mpr hprobe
    exact ⟨b', m2, scan_leaks _ st b m m1 mask ha.1 pos hpos hwild h g b' none m2 h2 ((C104_probe_releases k env purge st b m1 (g.ok hm) _).2 _ _ h2)⟩
  · exact absurd hg hng

/-- C104 is violated: on every bus, a refused allocation of the selection frame makes the scan leave the copy of the mask behind. -/
theorem C104_memory_violation (k : Kind) (env : Env) (purge : Int) (st : Settings) (hst : 0 ≤ st.maxSearchRetry) (b : Bus) (m : Mem) (hm : MemOk m)
    (rest : List Bool) (hans : m.answers = true :: false :: rest) (mask : List Byte) (hl : mask.length = 16) (pos : Nat) (hpos : pos < 16)
    (hwild : mask.getD pos 0 = 102 ∨ mask.getD pos 0 = 70) :
    ∃ m', scanRangeOwned ((busLink k env).ops purge) st b m pos mask = .ok ((-1, b), m') ∧ Grown m m' [(m.next, mask ++ [0])] := by
  have h1 : m.alloc (mask ++ [0]) = (some m.next, ⟨m.next + 1, (m.next, mask ++ [0]) :: m.live, false :: rest⟩) := by
    unfold Mem.alloc
    rw [hans]
    rfl
  have g : Grown m ⟨m.next + 1, (m.next, mask ++ [0]) :: m.live, false :: rest⟩ [(m.next, mask ++ [0])] := ⟨rfl, by simp, by simp, by simp, by simp⟩
  have hp : probeSecondaryOwned ((busLink k env).ops purge) st b ⟨m.next + 1, (m.next, mask ++ [0]) :: m.live, false :: rest⟩ (mask.set pos 48) =
      .ok ((PROBE_ERROR, none, b), ⟨m.next + 1, (m.next, mask ++ [0]) :: m.live, rest⟩) := by
    unfold probeSecondaryOwned
    have hl' : (mask.set pos 48).length = 16 := by simp [hl]
    rw [if_neg (by omega), show (st.maxSearchRetry + 1).toNat = st.maxSearchRetry.toNat + 1 by omega]
    unfold probeLoopOwned selectSecondaryOwned
    rw [if_neg (by omega)]
    rfl
  exact ⟨_, scan_leaks _ st b m _ mask hl pos hpos hwild h1 g b none _ hp ((C104_probe_releases k env purge st b _ (g.ok hm) _).2 _ _ hp)⟩

/-- C104 on the bus with two meters: the scan leaves the heap alone; with a full heap it leaks. -/
example (k : Kind) (q : Int × Bus) (m' : Mem)
    (h : scanRangeOwned ((busLink k (idealBus twoMeters)).ops PURGE_M2S) ⟨3, 1, PURGE_M2S⟩ ⟨[], []⟩ ⟨8, [(7, [1, 2])], []⟩ 0 allWild = .ok (q, m')) :
    m'.live = [(7, [1, 2])] := by
  obtain ⟨news, g, hn⟩ := C104_scan_releases_partial k _ (twoMeters_scannable k).opened (twoMeters_scannable k).writable PURGE_M2S _ _ _
    ⟨by simp, by simp⟩ (by intro b hb; cases hb) 0 allWild (by unfold AddressMask allWild; decide +kernel) q m' h
  have : news = [] := by
    cases news with
    | nil => rfl
    | cons x l => exact absurd hn.length_eq (by simp)
  rw [g.live, this]
  rfl

/-- The run exists. -/
example (k : Kind) : ∃ q m', scanRangeOwned ((busLink k (idealBus twoMeters)).ops PURGE_M2S) ⟨3, 1, PURGE_M2S⟩ ⟨[], []⟩ ⟨8, [(7, [1, 2])], []⟩ 0 allWild = .ok (q, m') := by
  rcases C49_terminates k (idealBus twoMeters) PURGE_M2S ⟨3, 1, PURGE_M2S⟩ ⟨[], []⟩ 0 allWild with ⟨r, b', h⟩ | ⟨e, h, _⟩
  · exact ⟨(r, b'), (C104_scan_same k _ PURGE_M2S _ _ ⟨8, [(7, [1, 2])], []⟩ ⟨by simp, by simp⟩ (by intro b hb; cases hb) 0 allWild (r, b')).mpr h⟩
  · obtain ⟨sent', log, es, h1, _⟩ := C48_scan_finds_all k _ PURGE_M2S _ _ (twoMeters_scannable k) []
    have := (C49_passive ((busLink k (idealBus twoMeters)).ops PURGE_M2S) ⟨3, 1, PURGE_M2S⟩ ⟨[], []⟩ 0 allWild 0 ⟨[], sent'⟩).mpr ⟨log, h1⟩
    rw [this] at h
    cases h

/-! ### C105 -/

/-- C105 (what holds): on an orderly meter, whatever the operating system answers to allocations, `mbus_sendrecv_request` runs into no
undefined behaviour but that of the record parser; afterwards the heap is the old one plus the frames of the chain (all but the
caller's own frame), plus, if the last telegram could not be parsed (return code 1), possibly the records parsed from it. -/
theorem C105_request_memory_partial {σ : Type} (o : Ops σ) (V : σ → Prop) (mf : Int) (ho : Orderly o V mf) (st : Settings) (s : σ) (m : Mem) (hm : MemOk m)
    (a : Int) (reply : Frame) (hr : reply.dataSize ≤ 252) :
    (∀ e, sendrecvRequestOwned o st s m a reply mf = .error e → ParserFault e) ∧
    (∀ out m', sendrecvRequestOwned o st s m a reply mf = .ok (out, m') → out.blocks.length + 1 = out.chain.length ∧
      ∃ leaked, Kept m m' (out.blocks ++ leaked) ∧
        (leaked ≠ [] → out.code = 1 ∧ ∃ f z w, out.chain.getLast? = some f ∧ frameDataParse f z = .ok (-1, w))) :=
  ⟨(sendrecv_owned o V mf ho st s hm a reply hr).fault, (sendrecv_owned o V mf ho st s hm a reply hr).kept⟩

/-- C105: releasing the chain (`mbus_frame_free(reply->next)`) gives the heap back, unless records were leaked. -/
theorem C105_chain_released_partial {σ : Type} (o : Ops σ) (V : σ → Prop) (mf : Int) (ho : Orderly o V mf) (st : Settings) (s : σ) (m : Mem) (hm : MemOk m)
    (a : Int) (reply : Frame) (hr : reply.dataSize ≤ 252) (out : SrOwned σ) (m' : Mem)
    (h : sendrecvRequestOwned o st s m a reply mf = .ok (out, m')) (hcode : out.code ≠ 1) :
    ∃ m'', m'.freeList out.blocks = .ok m'' ∧ Kept m m'' [] := by
  obtain ⟨_, leaked, ⟨news, g, hp⟩, hl⟩ := (sendrecv_owned o V mf ho st s hm a reply hr).kept out m' h
  have : leaked = [] := by
    cases leaked with
    | nil => rfl
    | cons x l => exact absurd (hl (by simp)).1 hcode
  rw [this, List.append_nil] at hp
  obtain ⟨m'', h1, g1, _⟩ := freeList_rest hm g out.blocks hp.symm
  exact ⟨m'', h1, [], g1, .nil⟩

/-- C105: with granted allocations the request is what it is without heap. -/
theorem C105_same {σ : Type} (o : Ops σ) (V : σ → Prop) (mf : Int) (ho : Orderly o V mf) (st : Settings) (s : σ) (m : Mem) (hm : MemOk m) (hg : Granting m)
    (a : Int) (reply : Frame) (hr : reply.dataSize ≤ 252) :
    (∀ out m', sendrecvRequestOwned o st s m a reply mf = .ok (out, m') →
      ∃ p, sendrecvRequest o st s a reply mf = .ok ⟨out.code, out.chain, p, out.state⟩) ∧
    ∀ e, sendrecvRequestOwned o st s m a reply mf = .error e → sendrecvRequest o st s a reply mf = .error e :=
  ⟨fun out m' h => (((sendrecv_owned o V mf ho st s hm a reply hr).same hg).1 out m' h).2, ((sendrecv_owned o V mf ho st s hm a reply hr).same hg).2⟩

/-- The record loop when the next allocation is refused: no record. -/
theorem varLoopOwned_refused (d : Buf 252) (size : Nat) (hs : size ≤ 252) (v : VarData) (recs : List Nat) (m : Mem) (rest : List Bool) (hans : m.answers = false :: rest) :
    ∀ fuel i, size ≤ i + fuel → ∃ c m', varLoopOwned d size fuel i v recs m = .ok (c, v, recs, m') ∧ (c = 0 ∨ c = -2) ∧ m'.live = m.live := by
  intro fuel
  induction fuel with
  | zero =>
    intro i hi
    unfold varLoopOwned
    rw [if_neg (by omega)]
    exact ⟨0, m, rfl, .inl rfl, rfl⟩
  | succ fuel ih =>
    intro i hi
    unfold varLoopOwned
    by_cases h : i < size
    · rw [if_pos h]
      have hd : ∃ b, d.rd i = .ok b := ⟨_, by unfold Buf.rd; exact rd_ok (by rw [d.2]; omega)⟩
      obtain ⟨b, hb⟩ := hd
      rw [hb]
      dsimp only
      by_cases hf : b = 0x2F
      · rw [if_pos hf]; exact ih (i + 1) (by omega)
      · rw [if_neg hf]
        unfold Mem.alloc
        rw [hans]
        exact ⟨-2, _, rfl, .inr rfl, rfl⟩
    · rw [if_neg h]
      exact ⟨0, m, rfl, .inl rfl, rfl⟩

/-- C105 is violated (lost telegrams): when the allocation of a record is refused, the parser's return code -2 is taken for success: a meter
that announces more records is not asked for them, and the request returns 0 with the first telegram alone. -/
theorem C105_truncated_violation (k : Kind) (purge : Int) (hpurge : purge ≠ PURGE_S2M) (st : Settings) (hst : SettingsOk st) (a : Byte) (reply : Frame) (mf : Int)
    (t : Spec.Telegram) (ht : ReadableT true t) (m : Mem) (rest : List Bool) (hans : m.answers = true :: false :: rest) :
    ∃ out m' f, sendrecvRequestOwned ((busLink k (replyEnv fun _ => t)).ops purge) st ⟨[], []⟩ m a.toNat reply mf = .ok (out, m') ∧
      out.code = 0 ∧ out.chain = [f] ∧ Carries f t ∧ MoreFollows f ∧ out.state.sent.length = 1 := by
  have hL : t.Legal ∧ FromSlave t := by
    obtain ⟨c, a, p, rs, rfl, hcc, h12, h252, ht, hm⟩ := ht
    simp only [List.mem_cons, List.not_mem_nil, or_false] at hcc
    rcases hcc with rfl | rfl | rfl | rfl <;> exact ⟨⟨by decide, h252⟩, rfl⟩
  have hreq : ReqFrame a 0 { frameNew TYPE_SHORT with
      control := MASK_REQ_UD2 ||| MASK_DIR_M2S ||| MASK_FCV ||| MASK_FCB
      address := UInt8.ofNat (a.toNat : Int).toNat } := ⟨rfl, rfl, rfl, by simp, rfl⟩
  obtain ⟨e1, c1, hc1, e2, e3⟩ := exchange_step k (fun _ => t) purge hpurge [] hL.1 hL.2 a 0 _ hreq reply
  obtain ⟨x, p1, p2, p3, p4, _⟩ := readable_parse ht c1 hc1 FrameData.new
  have hsz : c1.dataSize ≤ 252 := by
    obtain ⟨c, a', p, rs, rfl, _, h12, h252, ht, hm⟩ := ht
    obtain ⟨q1, q2, q3, q4, q5, q6⟩ := hc1
    omega
  have hmore : MoreFollows c1 := (parse_more c1 _ x 0 hsz p1).1 (by decide) ⟨p2, p3.mpr rfl⟩
  obtain ⟨f1, f2, f3⟩ := parse_full c1 _ x p4 p1
  have halloc : m.alloc [] = (some m.next, ⟨m.next + 1, (m.next, []) :: m.live, false :: rest⟩) := by
    unfold Mem.alloc
    rw [hans]
    rfl
  obtain ⟨hd, hh, _⟩ := varHeader_eq c1.data
  obtain ⟨c, m2, hv1, hv2, hv3⟩ := varLoopOwned_refused c1.data c1.dataSize hsz { FrameData.new.var with nrecords := 0, more := 0, header := hd, records := [] } []
    ⟨m.next + 1, (m.next, []) :: m.live, false :: rest⟩ rest rfl c1.dataSize 12 (by omega)
  have hparse : frameDataParseOwned c1 FrameData.new [] ⟨m.next + 1, (m.next, []) :: m.live, false :: rest⟩ =
      .ok (c, { FrameData.new with type := DATA_VARIABLE, var := { FrameData.new.var with nrecords := 0, more := 0, header := hd, records := [] } }, [], m2) := by
    unfold frameDataParseOwned
    rw [if_pos ⟨f1, f2, by omega⟩]
    unfold variableParseOwned
    rw [if_neg (by omega), hh, ok_bind, hv1, ok_bind]
  have hfree : ∃ m3, m2.free m.next = .ok m3 := by
    unfold Mem.free
    rw [if_pos (by rw [hv3]; simp)]
    exact ⟨_, rfl⟩
  obtain ⟨m3, hfree⟩ := hfree
  refine ⟨⟨0, [c1], [], [], ⟨[], [(Spec.Telegram.short (ctl 0) a).wire]⟩⟩, m3, c1, ?_, rfl, rfl, hc1, hmore, rfl⟩
  unfold sendrecvRequestOwned
  rw [if_neg (by rw [byte_primary']; decide), halloc]
  dsimp only
  rw [sendrecvLoopOwned, dif_neg (by have := hst.1.1; omega), e1]
  simp only
  rw [if_neg (by decide), e2]
  simp only
  rw [if_pos trivial, e3]
  simp only
  rw [hparse]
  simp only
  rw [if_neg (by rcases hv2 with h | h <;> (rw [h]; decide)), dif_neg (fun h => h.2.1 rfl)]
  show (Except.ok _ >>= _) = _
  rw [ok_bind]
  dsimp only
  rw [hfree, ok_bind]
  rfl

/-- The record loop when exactly the records get memory. -/
theorem varLoopOwned_granted (d : Buf 252) (size fuel : Nat) : ∀ (i : Nat) (v w : VarData) (recs : List Nat) (m : Mem) (n : Nat) (rest : List Bool),
    varLoop d size fuel i v = .ok (0, w) → w.records.length = v.records.length + n → m.answers = List.replicate n true ++ rest →
    ∃ recs' m', varLoopOwned d size fuel i v recs m = .ok (0, w, recs', m') ∧ m'.answers = rest := by
  have grows : ∀ (fuel i : Nat) (v w : VarData) (c : Int), varLoop d size fuel i v = .ok (c, w) → v.records.length ≤ w.records.length := by
    intro fuel
    induction fuel with
    | zero =>
      intro i v w c h
      unfold varLoop at h
      split at h
      · cases h
      · injection h with h; injection h with _ h; subst h; exact Nat.le_refl _
    | succ fuel ih =>
      intro i v w c h
      unfold varLoop at h
      by_cases hi : i < size
      · rw [if_pos hi] at h
        dsimp only at h
        obtain ⟨b, hb, h⟩ := bind_eq_ok.mp h
        by_cases hf : b = 0x2F
        · rw [if_pos hf] at h; exact ih _ _ _ _ h
        · rw [if_neg hf] at h
          obtain ⟨q, hq, h⟩ := bind_eq_ok.mp h
          cases q with
          | none => injection h with h; injection h with _ h; subst h; exact Nat.le_refl _
          | some q => 
            have := ih _ _ _ _ h
            simp only [List.length_append, List.length_singleton] at this
            omega
      · rw [if_neg hi] at h; injection h with h; injection h with _ h; subst h; exact Nat.le_refl _
  induction fuel with
  | zero =>
    intro i v w recs m n rest h hn ha
    unfold varLoop at h
    unfold varLoopOwned
    by_cases hi : i < size
    · rw [if_pos hi] at h; cases h
    · rw [if_neg hi] at h ⊢
      injection h with h; injection h with _ h; subst h
      obtain rfl : n = 0 := by omega
      exact ⟨recs, m, rfl, by rw [ha]; rfl⟩
  | succ fuel ih =>
    intro i v w recs m n rest h hn ha
    unfold varLoop at h
    unfold varLoopOwned
    by_cases hi : i < size
    · rw [if_pos hi] at h ⊢
      dsimp only at h ⊢
      obtain ⟨b, hb, h⟩ := bind_eq_ok.mp h
      rw [hb]
      dsimp only
      by_cases hf : b = 0x2F
      · rw [if_pos hf] at h ⊢; exact ih _ _ _ _ _ _ _ h hn ha
      · rw [if_neg hf] at h ⊢
        obtain ⟨q, hq, h⟩ := bind_eq_ok.mp h
        cases q with
        | none => injection h with h; injection h with h _; cases h
        | some q =>
          obtain ⟨r, i'⟩ := q
          dsimp only at h
          have hg := grows _ _ _ _ _ h
          simp only [List.length_append, List.length_singleton] at hg
          obtain ⟨n', rfl⟩ : ∃ n', n = n' + 1 := ⟨n - 1, by omega⟩
          have hal : m.alloc [] = (some m.next, ⟨m.next + 1, (m.next, []) :: m.live, List.replicate n' true ++ rest⟩) := by
            unfold Mem.alloc; rw [ha]; rfl
          rw [hal]
          dsimp only
          rw [hq]
          exact ih _ _ _ _ _ n' rest h (by simp only [List.length_append, List.length_singleton]; omega) rfl
    · rw [if_neg hi] at h ⊢
      injection h with h; injection h with _ h; subst h
      obtain rfl : n = 0 := by omega
      exact ⟨recs, m, rfl, by rw [ha]; rfl⟩

/-- C105: when there is no memory for the request frame, nothing is sent and the request returns -1. -/
theorem C105_request_refused {σ : Type} (o : Ops σ) (st : Settings) (s : σ) (m : Mem) (hn : NextFails m) (a : Byte) (reply : Frame) (mf : Int) :
    ∃ out m', sendrecvRequestOwned o st s m a.toNat reply mf = .ok (out, m') ∧ out.code = -1 ∧ out.chain = [reply] ∧ out.blocks = [] ∧ out.state = s ∧ m'.live = m.live := by
  unfold sendrecvRequestOwned
  have hp : isPrimaryAddress (a.toNat : Int) = true := byte_primary' a
  have hal : ∃ m', m.alloc [] = (none, m') ∧ m'.live = m.live := by
    unfold NextFails at hn
    unfold Mem.alloc
    cases h : m.answers with
    | nil => rw [h] at hn; cases hn
    | cons b l => rw [h] at hn; injection hn with hn; subst hn; exact ⟨_, rfl, rfl⟩
  obtain ⟨m', hal, hl⟩ := hal
  rw [if_neg (by rw [hp]; decide), hal]
  exact ⟨_, _, rfl, rfl, rfl, rfl, rfl, hl⟩

example : NextFails ⟨3, [(1, [])], [false]⟩ := rfl

/-- C105: when the records of the first telegram get memory but the frame for the announced second telegram does not, the request returns
-1 (not success) with the first telegram alone, and everything else is released. -/
theorem C105_next_refused (k : Kind) (purge : Int) (hpurge : purge ≠ PURGE_S2M) (st : Settings) (hst : SettingsOk st) (a : Byte) (reply : Frame) (mf : Int) (hmf : 1 < mf)
    (c b : Byte) (hc : c ∈ ([0x08, 0x18, 0x28, 0x38] : List Byte)) (p : List Byte) (h12 : 12 ≤ p.length) (h252 : p.length ≤ 252) (rs : List Rec)
    (ht : Tiles (p.drop 12) rs) (hmore : EndsWithMore rs)
    (m : Mem) (hm : MemOk m) (rest : List Bool) (hans : m.answers = true :: (List.replicate rs.length true ++ false :: rest)) :
    ∃ out m' f, sendrecvRequestOwned ((busLink k (replyEnv fun _ => .data c b 0x72 p)).ops purge) st ⟨[], []⟩ m a.toNat reply mf = .ok (out, m') ∧
      out.code = -1 ∧ out.chain = [f] ∧ Carries f (.data c b 0x72 p) ∧ out.blocks = [] ∧ Kept m m' [] := by
  have hrt : ReadableT true (.data c b 0x72 p) := ⟨c, b, p, rs, rfl, hc, h12, h252, ht, by simp [hmore]⟩
  have hL : (Spec.Telegram.data c b 0x72 p).Legal ∧ FromSlave (Spec.Telegram.data c b 0x72 p) := by
    simp only [List.mem_cons, List.not_mem_nil, or_false] at hc
    rcases hc with rfl | rfl | rfl | rfl <;> exact ⟨⟨by decide, h252⟩, rfl⟩
  have hreq : ReqFrame a 0 { frameNew TYPE_SHORT with
      control := MASK_REQ_UD2 ||| MASK_DIR_M2S ||| MASK_FCV ||| MASK_FCB
      address := UInt8.ofNat (a.toNat : Int).toNat } := ⟨rfl, rfl, rfl, by simp, rfl⟩
  obtain ⟨e1, c1, hc1, e2, e3⟩ := exchange_step k (fun _ => .data c b 0x72 p) purge hpurge [] hL.1 hL.2 a 0 _ hreq reply
  obtain ⟨x, p1, p2, p3, p4, _⟩ := readable_parse hrt c1 hc1 FrameData.new
  have hc1' : Carries c1 (.data c b 0x72 p) := hc1
  obtain ⟨q1, q2, q3, q4, q5, q6⟩ := hc1
  have q5 : c1.dataSize = p.length := q5
  have q6 : payload c1 = p := q6
  obtain ⟨f1, f2, f3⟩ := parse_full c1 _ x p4 p1
  -- the plain parse
  obtain ⟨v', hv, _, hrec, _⟩ := variableParse_complete c1 FrameData.new.var (by omega) (by omega) rs (by rw [q6]; exact ht)
  have hx : x = { FrameData.new with type := DATA_VARIABLE, var := v' } := by
    rw [rsp_dir c1 _ ⟨f1, f2, by omega⟩, hv, ok_bind] at p1
    injection p1 with p1; injection p1 with _ p1; exact p1.symm
  have halloc : m.alloc [] = (some m.next, ⟨m.next + 1, (m.next, []) :: m.live, List.replicate rs.length true ++ false :: rest⟩) := by
    unfold Mem.alloc; rw [hans]; rfl
  obtain ⟨hd, hh, _⟩ := varHeader_eq c1.data
  have hloop : varLoop c1.data c1.dataSize c1.dataSize 12 { FrameData.new.var with nrecords := 0, more := 0, header := hd, records := [] } = .ok (0, v') := by
    unfold variableParse at hv
    dsimp only at hv
    rw [if_neg (by omega), hh, ok_bind] at hv
    exact hv
  obtain ⟨recs', m2, hv1, hv2⟩ := varLoopOwned_granted c1.data c1.dataSize c1.dataSize 12 _ v' [] ⟨m.next + 1, (m.next, []) :: m.live, List.replicate rs.length true ++ false :: rest⟩
    rs.length (false :: rest) hloop (by rw [hrec]; simp) rfl
  have g1 : Grown m ⟨m.next + 1, (m.next, []) :: m.live, List.replicate rs.length true ++ false :: rest⟩ [(m.next, [])] := ⟨rfl, by simp, by simp, by simp, by simp⟩
  obtain ⟨news, added, a1, a2, a3, _⟩ := (varLoopOwned_runs c1.data c1.dataSize c1.dataSize 12 _ [] _ (g1.ok hm)).2 _ _ _ _ hv1
  rw [List.nil_append] at a2
  subst a2
  have hparse : frameDataParseOwned c1 FrameData.new [] ⟨m.next + 1, (m.next, []) :: m.live, List.replicate rs.length true ++ false :: rest⟩ =
      .ok (0, x, recs', m2) := by
    unfold frameDataParseOwned
    rw [if_pos ⟨f1, f2, by omega⟩]
    unfold variableParseOwned
    rw [if_neg (by omega), hh, ok_bind, hv1, ok_bind, hx]
  have hal2 : m2.alloc [] = (none, { m2 with answers := rest }) := by
    unfold Mem.alloc; rw [hv2]; rfl
  obtain ⟨m3, r1, r2, r3⟩ := freeList_rest (m := { m2 with answers := rest }) (g1.ok hm) ⟨a1.live, a1.old, a1.nodup, a1.young, a1.next⟩ recs' a3
  have g3 := g1.trans r2
  obtain ⟨m4, s1, s2, _⟩ := free_grown hm g3 m.next (by simp)
  refine ⟨⟨-1, [c1], [], recs', ⟨[], [(Spec.Telegram.short (ctl 0) a).wire]⟩⟩, m4, c1, ?_, rfl, rfl, hc1', rfl, [], by simpa using s2, .nil⟩
  unfold sendrecvRequestOwned
  rw [if_neg (by rw [byte_primary']; decide), halloc]
  dsimp only
  rw [sendrecvLoopOwned, dif_neg (by have := hst.1.1; omega), e1]
  simp only
  rw [if_neg (by decide), e2]
  simp only
  rw [if_pos trivial, e3]
  simp only
  rw [hparse]
  simp only
  rw [if_neg (by decide), dif_pos ⟨p2, p3.mpr rfl, by omega, by omega⟩]
  unfold nextFrame
  rw [hal2]
  dsimp only
  rw [r1]
  show (Except.ok _ >>= _) = _
  rw [ok_bind]
  dsimp only
  rw [s1, ok_bind]
  rfl

/-- one record and the announcement of more -/
example : Tiles ((hdr ++ [0x01, 0x13, 5, 0x1F]).drop 12) [.value 0x01 [] 0x13 [] [] [5], .special 0x1F []] ∧
    EndsWithMore [.value 0x01 [] 0x13 [] [] [5], .special 0x1F []] :=
  ⟨.cons (dif := 0x01) (difes := []) (vif := 0x13) (text := []) (vifes := []) (data := [5]) (by simp only [Rec.Legal, DataFits]; rw [if_neg (by decide)]; decide)
    (.last _ _ (by simp only [Rec.Legal]; decide)), [], rfl⟩

/-- C105 is violated (leak): a meter whose telegram has a readable and then an unreadable record makes the request return 1 and leave
the readable record on the heap; nothing refers to it any more. -/
theorem C105_leak_violation (k : Kind) (purge : Int) (hpurge : purge ≠ PURGE_S2M) (st : Settings) (hst : SettingsOk st) (a b : Byte) (reply : Frame) (mf : Int)
    (m : Mem) (hm : MemOk m) (hg : Granting m) :
    ∃ out m' leaked, sendrecvRequestOwned ((busLink k (replyEnv fun _ => .data 0x08 b 0x72 (hdr ++ [0x01, 0x13, 5, 0x04, 0x13, 5]))).ops purge)
      st ⟨[], []⟩ m a.toNat reply mf = .ok (out, m') ∧ out.code = 1 ∧ out.blocks = [] ∧ leaked ≠ [] ∧ Kept m m' leaked := by
  have hreq : ReqFrame a 0 { frameNew TYPE_SHORT with
      control := MASK_REQ_UD2 ||| MASK_DIR_M2S ||| MASK_FCV ||| MASK_FCB
      address := UInt8.ofNat (a.toNat : Int).toNat } := ⟨rfl, rfl, rfl, by simp, rfl⟩
  obtain ⟨e1, c1, hc1, e2, e3⟩ := exchange_step k (fun _ => .data 0x08 b 0x72 (hdr ++ [0x01, 0x13, 5, 0x04, 0x13, 5])) purge hpurge []
    ⟨show (0x08 : Byte) ∈ dataCodes by decide, by simp [hdr]⟩ rfl a 0 _ hreq reply
  have hc1 : Carries c1 (.data 0x08 b 0x72 (hdr ++ [0x01, 0x13, 5, 0x04, 0x13, 5])) := hc1
  obtain ⟨q1, q2, q3, q4, q5, q6⟩ := hc1
  have q5 : c1.dataSize = 18 := q5
  have hv := (C28_payload_only_partial c1 (rsp 0x72 (hdr ++ [0x01, 0x13, 5, 0x04, 0x13, 5])) VarData.zero (by rw [q5]; rfl)
    (by have h : payload c1 = _ := q6; rw [h]; decide +kernel)).1 (by omega)
  have hdir : c1.control &&& 0x40 = 0 := by rw [q2]; rfl
  have hpl : ∃ v, frameDataParse c1 FrameData.new = .ok (-1, { FrameData.new with type := DATA_VARIABLE, var := v }) ∧ v.records ≠ [] := by
    rw [(frameDataParse_cases c1 FrameData.new).2.2 hdir q4, if_neg (by omega)]
    show ∃ v, (variableParse c1 VarData.zero >>= _) = _ ∧ _
    rw [hv]
    exact ⟨_, rfl, by decide +kernel⟩
  obtain ⟨v, hpl, hne⟩ := hpl
  rcases alloc_cases m [] with ⟨m1, h1, g1, hg1⟩ | ⟨m1, h1, g1, hng⟩
  · obtain ⟨r1, r2⟩ := frameDataParseOwned_runs c1 FrameData.new [] m1 (g1.ok hm)
    cases ho : frameDataParseOwned c1 FrameData.new [] m1 with
    | error e => rw [r1 e ho] at hpl; cases hpl
    | ok q =>
      obtain ⟨pc, w, recs, m2⟩ := q
      obtain ⟨news, g2, hg2, hrecs, hsame⟩ := r2 pc w recs m2 ho
      have hpz : frameDataParse c1 FrameData.new = .ok (pc, w) := by
        rcases hsame with ⟨_, h, _⟩ | h
        · exact absurd (hg1 hg) h
        · exact h
      rw [hpl] at hpz
      injection hpz with hpz
      injection hpz with hp1 hp2
      subst hp1; subst hp2
      rcases hrecs with ⟨_, _, h⟩ | ⟨hperm, _, _, _, hlen⟩
      · exact absurd ⟨hdir, q4, by omega⟩ h
      have hrne : recs ≠ [] := by
        intro h
        rw [h] at hlen
        exact hne (List.eq_nil_of_length_eq_zero hlen)
      obtain ⟨m3, news3, hf3, g3, hp3, _⟩ := freeList_part hm (g1.trans g2) [m.next] recs (by
        rw [List.map_append]
        exact List.perm_append_comm.trans (List.Perm.append_left _ hperm.symm))
      have hfree : m2.free m.next = .ok m3 := by
        have e : m2.freeList [m.next] = (m2.free m.next >>= fun m => .ok m) := rfl
        rw [e] at hf3
        cases hx : m2.free m.next with
        | error e => rw [hx] at hf3; cases hf3
        | ok y => rw [hx] at hf3; cases hf3; rfl
      refine ⟨⟨1, [c1], [], recs, ⟨[], [(Spec.Telegram.short (ctl 0) a).wire]⟩⟩, m3, recs, ?_, rfl, rfl, hrne, news3, g3, hp3⟩
      unfold sendrecvRequestOwned
      rw [if_neg (by rw [byte_primary']; decide), h1]
      dsimp only
      rw [sendrecvLoopOwned, dif_neg (by have := hst.1.1; omega), e1]
      simp only
      rw [if_neg (by decide), e2]
      simp only
      rw [if_pos trivial, e3]
      simp only
      rw [ho]
      simp only
      rw [if_pos trivial, ok_bind]
      dsimp only
      rw [hfree, ok_bind]
      rfl
  · exact absurd hg hng

/-- C105 on either handle with `max_frames` 1 and a heap that runs full at any point: all the memory is accounted for. -/
example (k : Kind) (env : Env) (purge : Int) (st : Settings) (b : Bus) (answers : List Bool) (a : Byte) (out : SrOwned Bus) (m' : Mem)
    (h : sendrecvRequestOwned ((busLink k env).ops purge) st b ⟨8, [(7, [1, 2])], answers⟩ a.toNat (frameNew TYPE_ANY) 1 = .ok (out, m')) (hc : out.code = 0) :
    ∃ m'', m'.freeList out.blocks = .ok m'' ∧ m''.live = [(7, [1, 2])] := by
  obtain ⟨m'', h1, news, g, hn⟩ := C105_chain_released_partial _ (fun _ => False) 1 (handle_orderly k env purge 1 (by decide)) st b _ ⟨by simp, by simp⟩ _ _ (by decide) out m' h
    (by rw [hc]; decide)
  refine ⟨m'', h1, ?_⟩
  have : news = [] := by
    cases news with
    | nil => rfl
    | cons x l => exact absurd hn.length_eq (by simp)
  rw [g.live, this]
  rfl

/-! Direct instances of the theorems above: any bus, some block of the caller, and any pattern of failing allocations. -/

example {σ : Type} (o : Ops σ) (s : σ) := C103_commands_release o s ⟨8, [(7, [1, 2])], [false, true]⟩ ⟨by simp, by simp⟩ (.request 5)
example (k : Kind) (env : Env) (b : Bus) := C104_probe_releases k env PURGE_M2S ⟨3, 1, PURGE_M2S⟩ b ⟨8, [(7, [1, 2])], [false, true]⟩ ⟨by simp, by simp⟩ allWild
example (k : Kind) (env : Env) (b : Bus) := C104_probe_same k env PURGE_M2S ⟨3, 1, PURGE_M2S⟩ b ⟨8, [(7, [1, 2])], [true]⟩ ⟨by simp, by simp⟩ (by unfold Granting; decide) allWild
example (k : Kind) (env : Env) (b : Bus) := C104_scan_leaves_masks_partial k env PURGE_M2S ⟨3, 1, PURGE_M2S⟩ b ⟨8, [(7, [1, 2])], [true, false]⟩ ⟨by simp, by simp⟩ 0 allWild
example (k : Kind) (env : Env) (b : Bus) := C105_request_memory_partial _ (fun _ => False) 1 (handle_orderly k env PURGE_M2S 1 (by decide)) ⟨3, 1, PURGE_M2S⟩ b
  ⟨8, [(7, [1, 2])], [true, false]⟩ ⟨by simp, by simp⟩ 5 (frameNew TYPE_ANY) (by decide)
example (k : Kind) (env : Env) (b : Bus) := C105_same _ (fun _ => False) 1 (handle_orderly k env PURGE_M2S 1 (by decide)) ⟨3, 1, PURGE_M2S⟩ b
  ⟨8, [(7, [1, 2])], [true]⟩ ⟨by simp, by simp⟩ (by unfold Granting; decide) 5 (frameNew TYPE_ANY) (by decide)

end Mbus
