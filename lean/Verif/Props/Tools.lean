import Verif.Lemmas.ToolsWire
/-
Property theorems C87, C88 (primary scan).
-/
namespace Mbus
open Spec

/-! ### C87 -/

/-- C87: whatever the handle does (provided that a failing receive does not fake an acknowledge), a primary scan with a legal
retry count pings the addresses 0, 1, ..., 250 in this order, each at most 1 + retries times and again only after no answer, and
prints for each address exactly what the table `Pinging` says: "Found" for one acknowledge with nothing after it, "Collision" for
garbage or for an acknowledge with something after it, nothing otherwise. -/
theorem C87_scan {σ : Type} (o : Ops σ) (hh : Honest o) (st : Settings) (s : σ) (retries : Int) (hr : 0 ≤ retries ∧ retries ≤ 9) (e : Exit (σ × List Act))
    (h : scanTool o.logged st (s, []) retries = .ok e) :
    e.code = 0 ∧ ∃ parts : List (List Line × List Act), parts.length = 251 ∧ e.out = parts.flatMap (·.1) ∧ e.state.2 = parts.flatMap (·.2) ∧
      ∀ a, (ha : a < parts.length) → Pinging a (retries + 1).toNat parts[a].1 parts[a].2 := by
  have hs : setOption st 1 retries = (0, { st with maxSearchRetry := retries }) := by
    unfold setOption
    rw [if_neg (by decide), if_pos rfl, if_pos hr]
  unfold scanTool at h
  rw [hs] at h
  dsimp only at h
  rw [if_neg (by decide), bind_eq_ok] at h
  obtain ⟨⟨ls, s'⟩, h1, h2⟩ := h
  cases h2
  obtain ⟨parts, p1, p2, p3, p4⟩ := scanFrom_parts o hh _ hr.1 _ 0 s [] ls s' (by decide) h1
  refine ⟨rfl, parts, p1, p2, by simpa using p3, fun a ha => ?_⟩
  have := p4 a ha
  rwa [Nat.zero_add] at this

/-- C87: a retry count that is not legal stops the tool before anything is sent. -/
theorem C87_refused {σ : Type} (o : Ops σ) (st : Settings) (s : σ) (retries : Int) (hr : ¬ (0 ≤ retries ∧ retries ≤ 9)) :
    scanTool o st s retries = .ok ⟨1, [], s⟩ := by
  unfold scanTool setOption
  rw [if_neg (by decide), if_pos rfl, if_neg hr]
  rfl

/-- C87: the observer changes nothing. -/
theorem C87_passive {σ : Type} (o : Ops σ) (st : Settings) (s s' : σ) (retries c : Int) (out : List Line) :
    scanTool o st s retries = .ok ⟨c, out, s'⟩ ↔ ∃ log, scanTool o.logged st (s, []) retries = .ok ⟨c, out, s', log⟩ := by
  unfold scanTool
  generalize setOption st 1 retries = q
  obtain ⟨r, st1⟩ := q
  dsimp only
  by_cases hr : r = -1
  · rw [if_pos hr, if_pos hr]
    constructor
    · intro h; cases h; exact ⟨[], rfl⟩
    · rintro ⟨log, h⟩; cases h; rfl
  rw [if_neg hr, if_neg hr]
  have hp := scanFrom_passive o st1 (MAX_PRIMARY_SLAVES + 1) 0 s []
  rw [← hp]
  cases scanFrom o.logged st1 (MAX_PRIMARY_SLAVES + 1) 0 (s, []) with
  | error e => exact ⟨fun h => (by cases h), fun ⟨_, h⟩ => (by cases h)⟩
  | ok q =>
    obtain ⟨ls, s1, log⟩ := q
    constructor
    · intro h; cases h; exact ⟨log, rfl⟩
    · rintro ⟨_, h⟩; cases h; rfl

/-- C87: both transports are honest (unless received meter telegrams are purged, which the tools never ask for), and on both the
scan ends without undefined behaviour, whatever the bus does. -/
theorem C87_transports (k : Kind) (env : Env) (purge : Int) (st : Settings) (b : Bus) (retries : Int) :
    (purge ≠ PURGE_S2M → Honest ((busLink k env).ops purge)) ∧ ∃ e, scanTool ((busLink k env).ops purge) st b retries = .ok e := by
  refine ⟨bus_honest k env purge, ?_⟩
  unfold scanTool
  generalize setOption st 1 retries = q
  dsimp only
  split
  · exact ⟨_, rfl⟩
  · obtain ⟨q, h⟩ := scanFrom_defined k env purge q.2 (MAX_PRIMARY_SLAVES + 1) 0 b
    rw [h]
    exact ⟨_, rfl⟩

/-- an address that is pinged twice, the second time with success -/
example (f g : Frame) (hf : PingFrame 5 f) (hg : Carries g .ack) :
    Pinging 5 2 [.found 5] [.sent f 0, .received RECV_TIMEOUT Frame.zero, .sent f 0, .received RECV_OK g, .purged 0] :=
  .again 1 f 0 _ _ _ hf (by decide) (.found 0 f 0 g hf (by decide) hg)

/-! ### C88 -/

/-- C88: on a bus with meters at the primary addresses `addrs` that answers faithfully, a scan (with any legal retry count) prints
"Found" for exactly the addresses 0..250 that belong to one meter, "Collision" for those that belong to several, nothing for
the others, in ascending order; it has transmitted one ping per address with a meter and 1 + retries pings per address without. -/
theorem C88_scan_wire (k : Kind) (env : Env) (ho : IsOpen k env) (hw : Writable env) (purge : Int) (hp : purge ≠ PURGE_S2M) (st : Settings)
    (addrs : List Byte) (hf : FaithfulPing addrs env) (retries : Int) (hr : 0 ≤ retries ∧ retries ≤ 9) (sent : List (List Byte)) :
    scanTool ((busLink k env).ops purge) st ⟨[], sent⟩ retries = .ok ⟨0, (List.range 251).flatMap (scanLine addrs),
      ⟨[], sent ++ (List.range 251).flatMap fun a =>
        List.replicate (if UInt8.ofNat a ∈ addrs then 1 else (retries + 1).toNat) (pingWire (UInt8.ofNat a))⟩⟩ := by
  have hs : setOption st 1 retries = (0, { st with maxSearchRetry := retries }) := by
    unfold setOption
    rw [if_neg (by decide), if_pos rfl, if_pos hr]
  unfold scanTool
  rw [hs]
  dsimp only
  rw [if_neg (by decide), scanFrom_wire k env ho hw purge hp { st with maxSearchRetry := retries } hr.1 addrs hf (MAX_PRIMARY_SLAVES + 1) 0 sent (by decide),
    ok_bind, List.range_eq_range']
  rfl

/-- C88, read off the output: the lines that are printed. -/
theorem C88_lines (addrs : List Byte) (l : Line) :
    l ∈ (List.range 251).flatMap (scanLine addrs) ↔
      ∃ a : Byte, a.toNat ≤ 250 ∧ ((addrs.count a = 1 ∧ l = .found a.toNat) ∨ (2 ≤ addrs.count a ∧ l = .collision a.toNat)) := by
  have hc : ∀ a : Byte, (addrs.filter (·.toNat = a.toNat)).length = addrs.count a := by
    intro a
    rw [List.count, List.countP_eq_length_filter]
    congr 1
    apply List.filter_congr
    intro b _
    rw [Bool.eq_iff_iff]
    simp [UInt8.toNat_inj]
  have hl : ∀ a : Nat, l ∈ scanLine addrs a ↔ ((addrs.filter (·.toNat = a)).length = 1 ∧ l = .found a) ∨ (2 ≤ (addrs.filter (·.toNat = a)).length ∧ l = .collision a) := by
    intro a
    unfold scanLine
    generalize (addrs.filter (·.toNat = a)).length = n
    match n with
    | 0 => simp
    | 1 => simp
    | n + 2 => simp
  rw [List.mem_flatMap]
  constructor
  · rintro ⟨a, ha, h⟩
    rw [List.mem_range] at ha
    have e : (UInt8.ofNat a).toNat = a := by simp; omega
    refine ⟨UInt8.ofNat a, by omega, ?_⟩
    rw [← hc, e]
    exact (hl a).mp h
  · rintro ⟨a, ha, h⟩
    refine ⟨a.toNat, by rw [List.mem_range]; omega, (hl _).mpr ?_⟩
    rw [hc]
    exact h

/-- a bus with a meter at address 5 and two meters at address 7 -/
def threeMeters : Env :=
  { respond := fun sent => if sent.getLast? = some (pingWire 5) then [.data [0xE5]] else if sent.getLast? = some (pingWire 7) then [.data [0xE5, 0x01]] else [],
    junk := fun _ => 0, wret := fun _ n => n, tty := true }

theorem pingWire_inj : ∀ a b : Byte, pingWire a = pingWire b → a = b := by
  intro a b h
  have : (pingWire a)[2]? = (pingWire b)[2]? := by rw [h]
  simpa [pingWire, Telegram.wire] using this

theorem threeMeters_faithful : FaithfulPing [7, 5, 7] threeMeters := by
  intro sent a
  by_cases h5 : a = 5
  · subst h5
    exact ⟨[[0xE5]], by unfold Chunks; decide, by simp [threeMeters, evs], by simp⟩
  by_cases h7 : a = 7
  · subst h7
    refine ⟨[[0xE5, 0x01]], by unfold Chunks; decide, ?_, ?_⟩
    · simp only [threeMeters, List.getLast?_append, List.getLast?_singleton, Option.some_or]
      rw [if_neg (by decide), if_pos (by decide)]
      rfl
    · exact .inr ⟨[0x01], .start 0x01 [] (by unfold NoStart; decide), rfl⟩
  · refine ⟨[], by unfold Chunks; simp, ?_, ?_⟩
    · simp only [threeMeters, List.getLast?_append, List.getLast?_singleton, Option.some_or]
      rw [if_neg (by intro h; exact h5 (pingWire_inj _ _ (by simpa using h))), if_neg (by intro h; exact h7 (pingWire_inj _ _ (by simpa using h)))]
      rfl
    · have : [(7 : Byte), 5, 7].filter (· = a) = [] := by
        rw [List.filter_eq_nil_iff]
        intro x hx
        simp only [List.mem_cons, List.not_mem_nil, or_false] at hx
        rcases hx with rfl | rfl | rfl <;> simp <;> intro h <;> first | exact h7 h.symm | exact h5 h.symm
      rw [this]
      rfl

example (k : Kind) : ∃ b, scanTool ((busLink k threeMeters).ops PURGE_M2S) Settings.default ⟨[], []⟩ 1 = .ok ⟨0, [.found 5, .collision 7], b⟩ := by
  have h := C88_scan_wire k threeMeters (.inr rfl) (fun _ _ => rfl) PURGE_M2S (by decide) Settings.default [7, 5, 7] threeMeters_faithful 1 (by decide) []
  rw [show (List.range 251).flatMap (scanLine [7, 5, 7]) = [.found 5, .collision 7] by decide +kernel] at h
  exact ⟨_, h⟩

/-! ### C89 -/

/-- C89: what `mbus-serial-set-address` does, for every handle (on which a failing receive does not fake an acknowledge): either
nothing but resets, pings of the new address and the selection of the named meter is sent and nothing is printed; or exactly one
command with user data is sent, it is the telegram that assigns `new` to the
meter the user named, it was preceded by a ping to the new address that nobody answered (and, for a secondary address, by a
selection that found exactly one meter), and success is printed exactly if it was acknowledged. -/
theorem C89_set_address {σ : Type} (junk : Frame) (o : Ops σ) (hh : Honest o) (s : σ) (old new : List Byte) (e : Exit (σ × List Act))
    (h : setAddressTool junk o.logged (s, []) old new = .ok e) :
    ((∀ f c, Act.sent f c ∈ e.state.2 → SetupFrame old new f) ∧ e.out = [] ∧ e.code ≠ 0) ∨
    (∃ (n : Nat) (init sel tail : List Act) (p f g : Frame) (cp cf dest : Int),
      atoi new = n ∧ n ≤ 252 ∧ 0 ≤ dest ∧ dest ≤ 255 ∧ OnlyResets init ∧ PingFrame n p ∧ Reached old dest sel ∧
      Carries f (.data 0x53 (UInt8.ofNat dest.toNat) 0x51 [0x01, 0x7A, UInt8.ofNat n]) ∧
      e.state.2 = init ++ [.sent p cp, .received RECV_TIMEOUT g] ++ sel ++ [.sent f cf] ++ tail ∧
      ((cf = -1 ∧ tail = [] ∧ e.code = 1 ∧ e.out = []) ∨
       (cf ≠ -1 ∧ ∃ rc r, tail = [.received rc r] ∧ Answered (.addressSet n) rc r e.code e.out))) := by
  have noreset : ∀ l, OnlyResets l → ∀ f c, Act.sent f c ∈ l → SetupFrame old new f := fun l hl f c hm => .reset (hl f c hm)
  have hsel : ∀ r l, Selection old r l → ∀ f c, Act.sent f c ∈ l → SetupFrame old new f := by
    intro r l h f c hm
    cases h <;> simp at hm <;> (obtain ⟨rfl, rfl⟩ := hm; exact .select ‹_› ‹_›)
  unfold setAddressTool at h
  dsimp only at h
  by_cases hp : isPrimaryAddress (atoi new) = false
  · rw [if_pos hp] at h; cases h; exact .inl ⟨by simp, rfl, by simp⟩
  rw [if_neg hp] at h
  by_cases hb : atoi new = 0xFD ∨ atoi new = 0xFE ∨ atoi new = 0xFF
  · rw [if_pos hb] at h; cases h; exact .inl ⟨by simp, rfl, by simp⟩
  rw [if_neg hb, bind_eq_ok] at h
  have hp' : 0 ≤ atoi new ∧ atoi new ≤ 255 := (isPrimary_iff _).mp (by cases hx : isPrimaryAddress (atoi new); exact absurd hx hp; rfl)
  obtain ⟨n, hn⟩ : ∃ n : Nat, atoi new = n := ⟨(atoi new).toNat, by omega⟩
  have hn2 : n ≤ 252 := by omega
  rw [hn] at h
  obtain ⟨⟨ok, s1, log1⟩, h1, h⟩ := h
  obtain ⟨l1, e1, r1⟩ := init_log o s [] ok _ h1
  simp only [List.nil_append] at e1 h
  subst e1
  cases ok with
  | false => rw [if_pos rfl] at h; cases h; exact .inl ⟨noreset _ r1, rfl, by simp⟩
  | true =>
    rw [if_neg (by decide), bind_eq_ok] at h
    obtain ⟨⟨r, s2, log2⟩, h2, h⟩ := h
    obtain ⟨p, cp, hpf, e2, hr⟩ := ping_log o s1 log1 n (by omega) r _ h2
    simp only at e2 h
    subst e2
    rcases hr with ⟨rfl, rfl⟩ | ⟨hc, rfl⟩
    · rw [if_pos rfl] at h
      cases h
      refine .inl ⟨?_, rfl, by simp⟩
      intro f c hm
      rcases List.mem_append.mp hm with hm | hm
      · exact noreset _ r1 f c hm
      · simp at hm; rw [hm.1]; exact .ping n hn hn2 hpf
    rw [if_neg (by decide), logged_recv_eq] at h
    cases hq : o.recv s2 junk with
    | error e => rw [hq] at h; cases h
    | ok q =>
      obtain ⟨rc, g, s3⟩ := q
      rw [hq] at h
      simp only [ok_bind] at h
      have hpre : ∀ f c, Act.sent f c ∈ log1 ++ [Act.sent p cp] ++ [.received rc g] → SetupFrame old new f := by
        intro f c hm
        simp only [List.mem_append, List.mem_singleton, Act.sent.injEq] at hm
        rcases hm with (hm | hm) | hm
        · exact noreset _ r1 f c hm
        · rw [hm.1]; exact .ping n hn hn2 hpf
        · cases hm
      by_cases ht : rc = RECV_TIMEOUT
      · subst ht
        rw [if_neg (by decide), bind_eq_ok] at h
        obtain ⟨⟨a, s4, log4⟩, h4, h⟩ := h
        have hreach : (a = none ∧ ∃ l r, log4 = log1 ++ [Act.sent p cp] ++ [.received RECV_TIMEOUT g] ++ l ∧ Selection old r l) ∨
            ∃ dest l, a = some dest ∧ Reached old dest l ∧ log4 = log1 ++ [Act.sent p cp] ++ [.received RECV_TIMEOUT g] ++ l := by
          rcases reach_log o s3 _ old a _ h4 with ⟨hm, l, r, e3, hs, ha⟩ | ⟨hm, ha, hs⟩
          · by_cases hr1 : r = 1
            · subst hr1
              exact .inr ⟨0xFD, l, by simpa using ha, .secondary l hm hs, e3⟩
            · exact .inl ⟨by rw [ha, if_neg hr1], l, r, e3, hs⟩
          · exact .inr ⟨atoi old, [], ha, .primary hm, by have := congrArg Prod.snd hs; simpa using this⟩
        rcases hreach with ⟨rfl, l, r, e3, hs⟩ | ⟨dest, l, rfl, hre, e3⟩
        · simp only at h
          cases h
          refine .inl ⟨?_, rfl, by simp⟩
          intro f c hm
          simp only at hm
          rw [e3] at hm
          rcases List.mem_append.mp hm with hm | hm
          · exact hpre f c hm
          · exact hsel _ _ hs f c hm
        · simp only at h
          rw [bind_eq_ok] at h
          obtain ⟨⟨r5, s5, log5⟩, h5, h⟩ := h
          have hpre2 : ∀ f c, Act.sent f c ∈ log4 → SetupFrame old new f := by
            intro f c hm
            rw [e3] at hm
            rcases List.mem_append.mp hm with hm | hm
            · exact hpre f c hm
            · cases hre with
              | secondary _ _ hs => exact hsel _ _ hs f c hm
              | primary _ => cases hm
          rcases setPrimary_log o s4 log4 dest n hn2 r5 _ h5 with ⟨_, rfl, hs⟩ | ⟨hd, f, cf, hf, e5, hr⟩
          · simp only at h
            rw [if_pos trivial] at h
            cases h
            cases hs
            exact .inl ⟨hpre2, rfl, by simp⟩
          · simp only at e5 h
            subst e5
            right
            rcases hr with ⟨rfl, rfl⟩ | ⟨hc5, rfl⟩
            · rw [if_pos rfl] at h
              cases h
              exact ⟨n, log1, l, [], p, f, g, cp, -1, dest, hn, hn2, hd.1, hd.2, r1, hpf, hre, hf, by simp [e3], .inl ⟨rfl, rfl, rfl, rfl⟩⟩
            · rw [if_neg (by decide), logged_recv_eq] at h
              cases hq2 : o.recv s5 Frame.zero with
              | error e => rw [hq2] at h; cases h
              | ok q =>
                obtain ⟨rc2, g2, s6⟩ := q
                rw [hq2] at h
                simp only [ok_bind, printReply] at h
                refine ⟨n, log1, l, [.received rc2 g2], p, f, g, cp, cf, dest, hn, hn2, hd.1, hd.2, r1, hpf, hre, hf, ?_, .inr ⟨hc5, rc2, g2, rfl, ?_⟩⟩
                · split at h
                  · cases h; simp [e3]
                  · split at h <;> cases h <;> simp [e3]
                · refine answered_of o hh s5 Frame.zero (by decide) rc2 g2 s6 hq2 _ _ _ ?_
                  by_cases ht2 : rc2 = RECV_TIMEOUT
                  · rw [if_pos ht2] at h ⊢; cases h; rfl
                  · rw [if_neg ht2] at h ⊢
                    by_cases ha2 : g2.type ≠ TYPE_ACK
                    · rw [if_pos ha2] at h ⊢; cases h; rfl
                    · rw [if_neg ha2] at h ⊢; cases h; rfl
      · rw [if_pos ht] at h
        cases h
        exact .inl ⟨hpre, rfl, by simp⟩

/-- C89 on the wire: on a bus where the new address (0..252, a decimal numeral) is free, the meter `old` can be reached at address
`dest` and the meter acknowledges the command (in chunks of any size), the tool reports success and exits with 0; exactly two resets
of the selection, one ping of the new address, the selection (if any) and the command have been transmitted, in this order. -/
theorem C89_wire (k : Kind) (env : Env) (ho : IsOpen k env) (hw : Writable env) (purge : Int) (hp : purge ≠ PURGE_S2M) (junk : Frame)
    (old new : List Byte) (n : Nat) (hn : Numeral new n) (hle : n ≤ 252) (before s1 s2 : List (List Byte)) (dest : Byte)
    (hi : Resettable env before s1) (hfree : env.respond (s1 ++ [pingWire (UInt8.ofNat n)]) = [])
    (hreach : Reachable env old (s1 ++ [pingWire (UInt8.ofNat n)]) dest s2) (cs : List (List Byte)) (hc : Chunks cs) (hack : cs.flatten = [0xE5])
    (t : Spec.Telegram) (ht : t = .data 0x53 dest 0x51 [0x01, 0x7A, UInt8.ofNat n]) (hr : env.respond (s2 ++ [t.wire]) = evs cs) :
    setAddressTool junk ((busLink k env).ops purge) ⟨[], before⟩ old new = .ok ⟨0, [.addressSet n], ⟨[], s2 ++ [t.wire]⟩⟩ := by
  have hat : atoi new = n := atoi_numeral hn (by omega)
  unfold setAddressTool
  rw [hat]
  dsimp only
  rw [if_neg (by rw [(isPrimary_iff (n : Int)).mpr (by omega)]; decide), if_neg (by omega), init_wire k env ho hw purge before s1 hi, ok_bind]
  simp only
  rw [if_neg (by decide), bus_sendPing k env ho hw purge s1 n (by omega), ok_bind]
  simp only
  rw [if_neg (by decide), hfree]
  show (recvFrame (busLink k env) purge ⟨[], _⟩ junk >>= _) = _
  rw [recv_silent k env ho, ok_bind]
  simp only
  rw [if_neg (by simp), reach_wire k env ho hw purge hp old _ dest s2 hreach, ok_bind]
  simp only
  rw [setPrimary_wire k env ho hw purge s2 dest n hle t ht, ok_bind]
  simp only
  rw [if_neg (by decide), hr]
  obtain ⟨g, cs', h1, h2, h3, h4⟩ := recv_ack1 k env ho purge hp (s2 ++ [t.wire]) cs hc [] hack Frame.zero
  show (recvFrame (busLink k env) purge ⟨evs cs, _⟩ Frame.zero >>= _) = _
  rw [h1, ok_bind]
  simp only
  rw [if_neg (by decide), if_neg (fun h => h h2), chunks_nil cs' h3 h4]
  rfl

/-- C89: a decimal numeral is taken for the number it denotes. -/
theorem C89_numeral (s : List Byte) (n : Nat) (h : Numeral s n) (hn : n < 2 ^ 31) : atoi s = n := atoi_numeral h hn

/-- C89: with a minus sign in front, for the negative number; -/
theorem C89_negative (s : List Byte) (n : Nat) (h : Numeral s n) (hn : n ≤ 2 ^ 31) : atoi (45 :: s) = -n := atoi_negative h hn

/-- C89: ... so a new address that is negative, 253, 254, 255 or larger is refused before anything is sent. -/
theorem C89_refused {σ : Type} (junk : Frame) (o : Ops σ) (s : σ) (old new : List Byte) (n : Nat)
    (hnew : Numeral new n ∧ 252 < n ∧ n < 2 ^ 31 ∨ ∃ t, new = 45 :: t ∧ Numeral t n ∧ 0 < n ∧ n ≤ 2 ^ 31) :
    setAddressTool junk o s old new = .ok ⟨-1, [], s⟩ := by
  unfold setAddressTool
  dsimp only
  rcases hnew with ⟨h1, h2, h3⟩ | ⟨t, rfl, h1, h2, h3⟩
  · rw [atoi_numeral h1 h3]
    by_cases hp : isPrimaryAddress (n : Int) = false
    · rw [if_pos hp]
    · rw [if_neg hp]
      have := (isPrimary_iff (n : Int)).mp (by cases hx : isPrimaryAddress (n : Int); exact absurd hx hp; rfl)
      rw [if_pos (by omega)]
  · rw [atoi_negative h1 h3, if_pos]
    cases hx : isPrimaryAddress (-(n : Int)) with
    | false => rfl
    | true => have := (isPrimary_iff _).mp hx; omega

example : Numeral (cs! "12") 12 ∧ (cs! "-12") = 45 :: cs! "12" := ⟨.more (cs! "1") 1 50 (.digit 49 (by decide)) (by decide), rfl⟩

example : Numeral (cs! "205") 205 := .more (cs! "20") 20 53 (.more (cs! "2") 2 48 (.digit 50 (by decide)) (by decide)) (by decide)

/-- a bus with nothing but one meter, at primary address 0, that accepts the command to take address 5 -/
def oneMeter : Env :=
  { respond := fun sent => if sent.getLast? = some (Spec.Telegram.data 0x53 0 0x51 [0x01, 0x7A, 5]).wire then [.data [0xE5]] else []
    junk := fun _ => 0
    wret := fun _ n => n
    tty := true }

/-- C89 is false for arguments that are neither 16 hexadecimal digits nor a number: "meter7" is not refused but taken for the
primary address 0, and the meter there is given the new address. -/
theorem C89_malformed_violation (k : Kind) :
    ¬ AddressMask (cs! "meter7") ∧ (∀ n, ¬ Numeral (cs! "meter7") n) ∧
    setAddressTool Frame.zero ((busLink k oneMeter).ops PURGE_M2S) ⟨[], []⟩ (cs! "meter7") (cs! "5") = .ok ⟨0, [.addressSet 5],
      ⟨[], [pingWire 0xFD, pingWire 0xFD, pingWire 5, (Spec.Telegram.data 0x53 0 0x51 [0x01, 0x7A, 5]).wire]⟩⟩ := by
  have hm : ¬ AddressMask (cs! "meter7") := fun h => absurd h.1 (by decide)
  have ho : IsOpen k oneMeter := by cases k <;> simp [IsOpen, oneMeter]
  have hw : Writable oneMeter := fun _ _ => rfl
  refine ⟨hm, fun n h => ?_, ?_⟩
  · have := (numeral_digits h).2.1 109 (by decide)
    exact absurd this (by decide)
  have e1 : oneMeter.respond ([] ++ [pingWire 0xFD]) = evs [] := by decide
  have e2 : oneMeter.respond ([] ++ [pingWire 0xFD] ++ [pingWire 0xFD]) = evs [] := by decide
  have e3 : oneMeter.respond ([] ++ [pingWire 0xFD] ++ [pingWire 0xFD] ++ [pingWire 5]) = [] := by decide
  have e4 : oneMeter.respond ([] ++ [pingWire 0xFD] ++ [pingWire 0xFD] ++ [pingWire 5] ++ [(Spec.Telegram.data 0x53 0 0x51 [0x01, 0x7A, 5]).wire]) = evs [[0xE5]] := by decide
  unfold setAddressTool
  rw [show atoi (cs! "5") = ((5 : Nat) : Int) from by decide]
  dsimp only
  rw [if_neg (by decide), if_neg (by decide), init_wire k oneMeter ho hw _ [] _ ⟨rfl, ⟨[], by simp [Chunks], e1⟩, [], by simp [Chunks], e2⟩, ok_bind]
  simp only
  rw [if_neg (by decide), bus_sendPing k oneMeter ho hw _ _ 5 (by omega), ok_bind]
  simp only
  rw [if_neg (by decide)]
  show (recvFrame (busLink k oneMeter) _ ⟨oneMeter.respond ([] ++ [pingWire 0xFD] ++ [pingWire 0xFD] ++ [pingWire 5]), _⟩ Frame.zero >>= _) = _
  rw [e3, recv_silent k oneMeter ho, ok_bind]
  simp only
  rw [if_neg (by simp)]
  unfold reach
  rw [if_neg (by rw [isSecondary_iff]; exact hm), ok_bind]
  simp only
  rw [show atoi (cs! "meter7") = (((0 : Byte).toNat : Nat) : Int) from by decide, setPrimary_wire k oneMeter ho hw _ _ 0 5 (by decide) _ rfl, ok_bind]
  simp only
  rw [if_neg (by decide)]
  obtain ⟨g, cs', h1, h2, h3, h4⟩ := recv_ack1 k oneMeter ho PURGE_M2S (by decide) ([] ++ [pingWire 0xFD] ++ [pingWire 0xFD] ++ [pingWire 5] ++ [(Spec.Telegram.data 0x53 0 0x51 [0x01, 0x7A, 5]).wire])
    [[0xE5]] (by simp [Chunks]) [] rfl Frame.zero
  rw [← e4] at h1
  change (recvFrame (busLink k oneMeter) _ ⟨oneMeter.respond ([] ++ [pingWire 0xFD] ++ [pingWire 0xFD] ++ [pingWire 5] ++ [(Spec.Telegram.data 0x53 0 0x51 [0x01, 0x7A, 5]).wire]), _⟩ Frame.zero >>= _) = _
  erw [h1]
  rw [ok_bind]
  simp only
  rw [if_neg (by decide), if_neg (fun h => h h2), chunks_nil cs' h3 h4]
  rfl

/-- ... while named by its number it is moved properly: the hypotheses of `C89_wire` are met. -/
example (k : Kind) (junk : Frame) :
    setAddressTool junk ((busLink k oneMeter).ops PURGE_M2S) ⟨[], []⟩ (cs! "0") (cs! "5") = .ok ⟨0, [.addressSet 5],
      ⟨[], [pingWire 0xFD, pingWire 0xFD, pingWire 5, (Spec.Telegram.data 0x53 0 0x51 [0x01, 0x7A, 5]).wire]⟩⟩ :=
  C89_wire k oneMeter (by cases k <;> simp [IsOpen, oneMeter]) (fun _ _ => rfl) PURGE_M2S (by decide) junk (cs! "0") (cs! "5") 5
    (.digit 53 (by decide)) (by decide) [] [pingWire 0xFD, pingWire 0xFD] [pingWire 0xFD, pingWire 0xFD, pingWire 5] 0
    ⟨rfl, ⟨[], by simp [Chunks], by decide⟩, [], by simp [Chunks], by decide⟩ (by decide)
    (.primary 0 (.digit 48 (by decide)) (fun h => absurd h.1 (by decide)) (by decide)) [[0xE5]] (by simp [Chunks]) rfl _ rfl (by decide)

/-! Direct instances of the theorems above. -/

example (k : Kind) (env : Env) (b : Bus) (e : Exit (Bus × List Act)) (h : scanTool ((busLink k env).ops PURGE_M2S).logged Settings.default (b, []) 1 = .ok e) :=
  C87_scan _ (bus_honest k env PURGE_M2S (by decide)) Settings.default b 1 (by decide) e h
example (k : Kind) (env : Env) (b : Bus) := C87_refused ((busLink k env).ops PURGE_M2S) Settings.default b 10 (by decide)
example (k : Kind) (env : Env) (b : Bus) (e : Exit (Bus × List Act))
    (h : setAddressTool Frame.zero ((busLink k env).ops PURGE_M2S).logged (b, []) (cs! "0") (cs! "5") = .ok e) :=
  C89_set_address Frame.zero _ (bus_honest k env PURGE_M2S (by decide)) b _ _ e h
example : atoi (cs! "12") = 12 := C89_numeral _ 12 (.more (cs! "1") 1 50 (.digit 49 (by decide)) (by decide)) (by decide)
example : atoi (cs! "-12") = -12 := C89_negative _ 12 (.more (cs! "1") 1 50 (.digit 49 (by decide)) (by decide)) (by decide)

end Mbus
