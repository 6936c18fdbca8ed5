import Verif.Props.Main
/-
C117: the command line tools from the command line to the wire and to standard output: the programs (C116) with the wire theorems of the
connected tools (C88-C95), for the bus behind the target named on the command line.
-/
namespace Mbus
open Spec

theorem report_ok {σ : Type} (uninit : Buf 256) (searched : Arg) (p' : Proc) (x : C (Exit σ)) (c : Int) (out : List Line) (s : σ) (t : List Byte)
    (hx : x = .ok ⟨c, out, s⟩) (ht : stdoutText uninit searched out = .ok t) :
    report uninit searched p' x = .ok ⟨c, t, s, if c = 0 then some p' else none⟩ := by
  unfold report
  rw [hx, ok_bind]
  dsimp only
  rw [ht, ok_bind]
  rfl

theorem succeeds_report (uninit : Buf 256) (searched : Arg) (p : Proc) (k : Nat) (main : C (Ran Bus)) (x : C (Exit Bus)) (out : List Line)
    (sent : List (List Byte)) (t : List Byte) (hm : main = report uninit searched { p with next := p.next + k } x) (hx : x = .ok ⟨0, out, ⟨[], sent⟩⟩)
    (ht : stdoutText uninit searched out = .ok t) : Succeeds main p t sent :=
  ⟨{ p with next := p.next + k }, by rw [hm]; exact report_ok _ _ _ _ 0 _ _ _ hx ht, rfl, rfl⟩

theorem fails_report (uninit : Buf 256) (searched : Arg) (p : Proc) (main : C (Ran Bus)) (x : C (Exit Bus)) (c : Int) (out : List Line)
    (sent : List (List Byte)) (t : List Byte) (hm : main = report uninit searched p x) (hx : x = .ok ⟨c, out, ⟨[], sent⟩⟩) (hc : c ≠ 0)
    (ht : stdoutText uninit searched out = .ok t) : Fails main c t sent :=
  ⟨hc, _, by rw [hm]; exact report_ok _ _ _ _ c _ _ _ hx ht⟩

/-- C117: `mbus-serial-scan` -/
theorem C117_serial_scan (uninit : Buf 256) (os : Os) (buses : Target → Env) (p : Proc) (ha : AnswerOk p os.answer) (d : Bool) (b r : Option Arg) (device : Arg)
    (hu : Usable os (.serial device (rate b))) (env : Env) (henv : buses (.serial device (rate b)) = env) (ho : IsOpen .serial env) (hw : Mbus.Writable env)
    (addrs : List Byte) (hf : FaithfulPing addrs env) (hr : 0 ≤ tries r ∧ tries r ≤ 9) (sent : List (List Byte)) :
    Succeeds (serialScanMain uninit os (wired buses) p ⟨[], sent⟩ (flag d ++ opt (cs! "-b") b ++ opt (cs! "-r") r ++ [device])) p
      (ifDebug d (cs! "Scanning primary addresses:\n") ++ (List.range 251).flatMap fun a => scanNotes d (tries r + 1).toNat addrs a ++ scanReport addrs a)
      (sent ++ (List.range 251).flatMap fun a => List.replicate (if UInt8.ofNat a ∈ addrs then 1 else (tries r + 1).toNat) (pingWire (UInt8.ofNat a))) := by
  obtain ⟨out, h1, h2⟩ := C118_scan_wire d .serial env ho hw 1 (by decide) ⟨3, 1, 1⟩ addrs hf (tries r) hr sent uninit []
  refine succeeds_report _ _ _ 3 _ _ _ _ _ (((C116_serial_scan uninit os (wired buses) p ⟨[], sent⟩ _).2 _ ((C115_serial_scan _ _).mpr ⟨d, b, r, device, rfl, rfl⟩)).2 hu ha) ?_ h2
  show scanToolD d ((busLink .serial (buses (.serial device (rate b)))).ops 1) _ _ _ = _
  rw [henv]
  exact h1

/-- C117: `mbus-tcp-scan` -/
theorem C117_tcp_scan (uninit : Buf 256) (os : Os) (buses : Target → Env) (p : Proc) (ha : AnswerOk p os.answer) (d : Bool) (r : Option Arg) (host port : Arg)
    (hu : Usable os (.tcp host (atol port))) (env : Env) (henv : buses (.tcp host (atol port)) = env) (ho : IsOpen .tcp env) (hw : Mbus.Writable env)
    (addrs : List Byte) (hf : FaithfulPing addrs env) (hr : 0 ≤ tries r ∧ tries r ≤ 9) (sent : List (List Byte)) :
    Succeeds (tcpScanMain uninit os (wired buses) p ⟨[], sent⟩ (flag d ++ opt (cs! "-r") r ++ [host, port])) p
      (ifDebug d (cs! "Scanning primary addresses:\n") ++ (List.range 251).flatMap fun a => scanNotes d (tries r + 1).toNat addrs a ++ scanReport addrs a)
      (sent ++ (List.range 251).flatMap fun a => List.replicate (if UInt8.ofNat a ∈ addrs then 1 else (tries r + 1).toNat) (pingWire (UInt8.ofNat a))) := by
  obtain ⟨out, h1, h2⟩ := C118_scan_wire d .tcp env ho hw 1 (by decide) ⟨3, 1, 1⟩ addrs hf (tries r) hr sent uninit []
  refine succeeds_report _ _ _ 3 _ _ _ _ _ (((C116_tcp_scan uninit os (wired buses) p ⟨[], sent⟩ _).2 _ ((C115_tcp_scan _ _).mpr ⟨d, r, host, port, rfl, rfl⟩)).2 hu ha) ?_ h2
  show scanToolD d ((busLink .tcp (buses (.tcp host (atol port)))).ops 1) _ _ _ = _
  rw [henv]
  exact h1

/-- C117: `mbus-serial-set-address`: the new address is free and the meter acknowledges -/
theorem C117_set_address (junk : Frame) (uninit : Buf 256) (os : Os) (buses : Target → Env) (p : Proc) (ha : AnswerOk p os.answer) (d : Bool)
    (b : Option Arg) (device old new : Arg) (hu : Usable os (.serial device (rate b))) (env : Env) (henv : buses (.serial device (rate b)) = env)
    (ho : IsOpen .serial env) (hw : Mbus.Writable env) (n : Nat) (hn : Numeral new n) (hle : n ≤ 252) (before s1 s2 : List (List Byte)) (dest : Byte)
    (hi : Resettable env before s1) (hfree : env.respond (s1 ++ [pingWire (UInt8.ofNat n)]) = [])
    (hreach : Reachable env old (s1 ++ [pingWire (UInt8.ofNat n)]) dest s2) (cs : List (List Byte)) (hc : Chunks cs) (hack : cs.flatten = [0xE5])
    (t : Spec.Telegram) (ht : t = .data 0x53 dest 0x51 [0x01, 0x7A, UInt8.ofNat n]) (hr : env.respond (s2 ++ [t.wire]) = evs cs) :
    Succeeds (setAddressMain junk uninit os (wired buses) p ⟨[], before⟩ (flag d ++ opt (cs! "-b") b ++ [device, old, new])) p
      (resetNotes d ++ (cs! "Set primary address of device to " ++ fmtInt n ++ cs! "\n")) (s2 ++ [t.wire]) := by
  have hnew : atoi new = n := atoi_numeral hn (by omega)
  refine succeeds_report _ _ _ 3 _ _ _ _ _ ((((C116_set_address junk uninit os (wired buses) p ⟨[], before⟩ _).2 _ ((C115_set_address _ _).mpr ⟨d, b, device, old, new, rfl, rfl⟩)).2
    (by show 0 ≤ atoi new ∧ atoi new ≤ 252; omega)).2 hu ha) ?_ (stdoutText_append _ _ _ _ _ _ (initNotes_text uninit [] d) (stdoutText_single uninit [] (.addressSet n) _ rfl))
  show setAddressToolD d junk ((busLink .serial (buses (.serial device (rate b)))).ops 1) _ old new = _
  rw [henv]
  exact (setAddressD_alike d junk _ _ old new).success (C89_wire .serial env ho hw 1 (by decide) junk old new n hn hle before s1 s2 dest hi hfree hreach cs hc hack t ht hr)

/-- C117: `mbus-serial-switch-baudrate`: the meter acknowledges -/
theorem C117_switch_baudrate (junk : Frame) (wild : Bool) (uninit : Buf 256) (os : Os) (buses : Target → Env) (p : Proc) (ha : AnswerOk p os.answer)
    (b : Option Arg) (device addr target : Arg) (hu : Usable os (.serial device (rate b))) (env : Env) (henv : buses (.serial device (rate b)) = env)
    (ho : IsOpen .serial env) (hw : Mbus.Writable env) (sent : List (List Byte)) (a : Byte) (hadr : Numeral addr a.toNat) (n : Nat) (hn : Numeral target n)
    (ci : Byte) (hb : ((n : Int), ci) ∈ baudTable) (t : Spec.Telegram) (ht : t = .data 0x53 a ci [])
    (cs : List (List Byte)) (hc : Chunks cs) (hack : cs.flatten = [0xE5]) (hr : env.respond (sent ++ [t.wire]) = evs cs) :
    Succeeds (switchBaudMain junk wild uninit os (wired buses) p ⟨[], sent⟩ (opt (cs! "-b") b ++ [device, addr, target])) p
      (cs! "Switched baud rate of device to " ++ fmtInt n ++ cs! "\n") (sent ++ [t.wire]) := by
  have h1 : atoi addr = a.toNat := atoi_numeral hadr (by have := a.toNat_lt; omega)
  have hn63 : n < 2 ^ 63 := by
    simp only [baudTable, List.mem_cons, Prod.mk.injEq, List.not_mem_nil, or_false] at hb
    omega
  have h2 : atol target = n := by
    have := (C115_number [] target [] n (by simp) hn (by simp) hn63).1
    simpa using this
  refine succeeds_report _ _ _ 3 _ _ _ _ _ (((C116_switch_baudrate junk wild uninit os (wired buses) p ⟨[], sent⟩ _).2 _ ((C115_switch_baudrate _ _).mpr ⟨b, device, addr, target, rfl, rfl⟩)).2 hu ha) ?_ (stdoutText_single uninit [] (.baudSwitched n) _ rfl)
  show switchBaudTool junk wild ((busLink .serial (buses (.serial device (rate b)))).ops 1) _ (atoi addr) (atol target) = _
  rw [henv, h1, h2]
  exact C90_baud_wire .serial env ho hw 1 (by decide) junk wild sent a n ci hb t ht cs hc hack hr

theorem reset_text (uninit : Buf 256) (searched : Arg) (c : Int) : lineText uninit searched (.reset c) = .ok (resetReport c) := by
  rw [lineText]
  unfold resetReport
  by_cases h : 0 ≤ c
  · rw [if_pos h, if_pos (by omega)]
  · rw [if_neg h, if_neg (by omega)]

/-- C117: `mbus-tcp-application-reset`: the meter acknowledges -/
theorem C117_reset (junk : Frame) (wild : Bool) (uninit : Buf 256) (os : Os) (buses : Target → Env) (p : Proc) (ha : AnswerOk p os.answer) (d : Bool)
    (host port addr : Arg) (sub : Option Arg) (hd : d = false → sub ≠ none → host ≠ cs! "-d")
    (hu : Usable os (.tcp host (atol port))) (env : Env) (henv : buses (.tcp host (atol port)) = env) (ho : IsOpen .tcp env) (hw : Mbus.Writable env)
    (before after : List (List Byte)) (dest : Byte) (hreach : Reachable env addr before dest after) (hs : subcode sub ≤ 255)
    (t : Spec.Telegram) (ht : t = .data 0x53 dest 0x50 (resetPayload (subcode sub)))
    (cs : List (List Byte)) (hc : Chunks cs) (hack : cs.flatten = [0xE5]) (hr : env.respond (after ++ [t.wire]) = evs cs) :
    Succeeds (resetMain junk wild uninit os (wired buses) p ⟨[], before⟩ (flag d ++ [host, port, addr] ++ maybe sub)) p
      (resetReport (subcode sub)) (after ++ [t.wire]) := by
  have hc' : ∀ debug : Bool, Asked.subcode { debug := debug, target := host, port := atol port, operands := addr :: maybe sub } = subcode sub := by
    intro debug; cases sub <;> rfl
  refine succeeds_report _ _ _ 3 _ _ _ _ _ (((C116_reset junk wild uninit os (wired buses) p ⟨[], before⟩ _).2 _
    ((C115_tcp_optional _ _).mpr ⟨d, host, port, addr, sub, rfl, hd, rfl⟩)).2 hu ha) ?_ (stdoutText_single uninit [] (.reset (subcode sub)) _ ?_)
  · show resetTool junk wild ((busLink .tcp (buses (.tcp host (atol port)))).ops 1) _ addr (Asked.subcode _) = _
    rw [henv, hc']
    exact C90_reset_wire .tcp env ho hw 1 (by decide) junk wild before after addr dest hreach (subcode sub) hs t ht cs hc hack hr
  · exact reset_text uninit [] _

/-- C117: `mbus-tcp-raw-send` with a legal telegram in hexadecimal: status 0 if the meter answers with a telegram, 1 if it is silent -/
theorem C117_raw_send (raw : Buf 4096) (junk : Frame) (files : Arg → Option (List Byte)) (stdin : List Byte) (uninit : Buf 256) (os : Os)
    (buses : Target → Env) (p : Proc) (ha : AnswerOk p os.answer) (d : Bool) (host port addr : Arg) (name : Option Arg)
    (hd : d = false → name ≠ none → host ≠ cs! "-d") (hu : Usable os (.tcp host (atol port))) (env : Env) (henv : buses (.tcp host (atol port)) = env)
    (ho : IsOpen .tcp env) (hw : Mbus.Writable env) (before after : List (List Byte)) (dest : Byte) (hreach : Reachable env addr before dest after)
    (t : Spec.Telegram) (hl : t.Legal) (file : List Byte) (hfile : input files stdin name = some file) (hf : HexText file t.wire) (hn : file.length ≤ 4096) :
    (∀ (u : Spec.Telegram) (cs : List (List Byte)), u.Legal → FromSlave u → Chunks cs → cs.flatten = u.wire → env.respond (after ++ [t.wire]) = evs cs →
      Succeeds (rawSendMain raw junk files stdin uninit os (wired buses) p ⟨[], before⟩ (flag d ++ [host, port, addr] ++ maybe name)) p []
        (after ++ [t.wire])) ∧
    (env.respond (after ++ [t.wire]) = [] →
      Fails (rawSendMain raw junk files stdin uninit os (wired buses) p ⟨[], before⟩ (flag d ++ [host, port, addr] ++ maybe name)) 1 []
        (after ++ [t.wire])) := by
  have hsrc : ∀ debug : Bool, Asked.source { debug := debug, target := host, port := atol port, operands := addr :: maybe name } files stdin = some file := by
    intro debug; rw [← hfile]; cases name <;> rfl
  have hmain := (((C116_raw_send raw junk files stdin uninit os (wired buses) p ⟨[], before⟩ _).2 _
    ((C115_tcp_optional _ _).mpr ⟨d, host, port, addr, name, rfl, hd, rfl⟩)).2 hu ha).1 file (hsrc d)
  have hwire := C93_wire raw junk .tcp env ho hw 1 (by decide) before after addr dest hreach t hl file hf hn
  rw [← henv] at hwire
  refine ⟨fun u cs h1 h2 h3 h4 h5 => ?_, fun h => ?_⟩
  · exact succeeds_report _ _ _ 3 _ _ _ _ _ hmain (hwire.1 u cs h1 h2 h3 h4 (by rw [henv]; exact h5)) rfl
  · exact fails_report _ _ _ _ _ 1 _ _ _ hmain (hwire.2 (by rw [henv]; exact h)) (by decide) rfl

/-- C117: `mbus-serial-select-secondary`: no meter has the address; one meter has it.  Without -b the address searched for is printed. -/
theorem C117_serial_select_partial (junk : Frame) (wild : Bool) (uninit : Buf 256) (os : Os) (buses : Target → Env) (p : Proc) (ha : AnswerOk p os.answer)
    (hdup : os.dup = true) (device addr : Arg) (b : Option Arg)
    (hu : Usable os (.serial device (rate b))) (env : Env) (henv : buses (.serial device (rate b)) = env) (ho : IsOpen .serial env) (hw : Mbus.Writable env)
    (devs : List Device) (hf : Faithful devs env) (hd : ∀ d ∈ devs, d.Readable) (hm : AddressMask addr) (hid : ∀ c ∈ addr.take 8, IdDigit c)
    (sent : List (List Byte)) :
    (devs.filter (fun d => selects (addressBytes addr) d.address) = [] →
      Fails (serialSelectMain junk wild uninit os (wired buses) p ⟨[], sent⟩ (opt (cs! "-b") b ++ [device, addr])) 1 []
        (sent ++ [selectionWire (addressBytes addr)])) ∧
    ∀ d, devs.filter (fun d => selects (addressBytes addr) d.address) = [d] →
      Succeeds (serialSelectMain junk wild uninit os (wired buses) p ⟨[], sent⟩ (opt (cs! "-b") b ++ [device, addr])) p
        (replyReport (b.getD addr) (addressText d.address)) (sent ++ [selectionWire (addressBytes addr)] ++ [requestWire]) := by
  have hmain := ((C116_serial_select junk wild uninit os (wired buses) p ⟨[], sent⟩ _).2 _
    ((C115_serial_select _ _).mpr ⟨b, device, addr, rfl, rfl⟩)).2 hdup hm hu ha
  have hwire := C95_wire .serial env ho hw 1 (by decide) devs hf hd addr hm hid junk wild sent
  rw [← henv] at hwire
  refine ⟨fun h => fails_report _ _ _ _ _ 1 _ _ _ hmain (hwire.1 h) (by decide) rfl, fun d h => ?_⟩
  refine succeeds_report _ _ _ 4 _ _ _ _ _ hmain (hwire.2 d h) (stdoutText_single uninit _ _ _ ?_)
  cases b <;> rfl

/-- C117: `mbus-tcp-select-secondary`: no meter has the address; one meter has it -/
theorem C117_tcp_select (junk : Frame) (wild : Bool) (uninit : Buf 256) (os : Os) (buses : Target → Env) (p : Proc) (ha : AnswerOk p os.answer)
    (hdup : os.dup = true) (host port addr : Arg)
    (hu : Usable os (.tcp host (atol port))) (env : Env) (henv : buses (.tcp host (atol port)) = env) (ho : IsOpen .tcp env) (hw : Mbus.Writable env)
    (devs : List Device) (hf : Faithful devs env) (hd : ∀ d ∈ devs, d.Readable) (hm : AddressMask addr) (hid : ∀ c ∈ addr.take 8, IdDigit c)
    (sent : List (List Byte)) :
    (devs.filter (fun d => selects (addressBytes addr) d.address) = [] →
      Fails (tcpSelectMain junk wild uninit os (wired buses) p ⟨[], sent⟩ [host, port, addr]) 1 [] (sent ++ [selectionWire (addressBytes addr)])) ∧
    ∀ d, devs.filter (fun d => selects (addressBytes addr) d.address) = [d] →
      Succeeds (tcpSelectMain junk wild uninit os (wired buses) p ⟨[], sent⟩ [host, port, addr]) p
        (replyReport addr (addressText d.address)) (sent ++ [selectionWire (addressBytes addr)] ++ [requestWire]) := by
  have hmain := ((C116_tcp_select junk wild uninit os (wired buses) p ⟨[], sent⟩ _).2 _
    ((C115_tcp_select _ _).mpr ⟨host, port, addr, rfl, rfl⟩)).2 hdup hm hu ha
  have hwire := C95_wire .tcp env ho hw 1 (by decide) devs hf hd addr hm hid junk wild sent
  rw [← henv] at hwire
  refine ⟨fun h => fails_report _ _ _ _ _ 1 _ _ _ hmain (hwire.1 h) (by decide) rfl, fun d h => ?_⟩
  exact succeeds_report _ _ _ 4 _ _ _ _ _ hmain (hwire.2 d h) (stdoutText_single uninit _ _ _ rfl)

theorem stdoutText_devices (uninit : Buf 256) (searched : Arg) (m : List Byte) (ls : List Line) (es : List Device)
    (h : Pointwise (fun l d => ∃ x, l = .device (addressText d.address) x ∧ Refines 0 m x) ls es) :
    ∃ ms, Pointwise (fun x (_ : Device) => Refines 0 m x) ms es ∧
      stdoutText uninit searched ls = .ok ((es.zip ms).flatMap fun v => deviceReport (addressText v.1.address) v.2) := by
  induction h with
  | nil => exact ⟨[], .nil, rfl⟩
  | cons h _ ih =>
    obtain ⟨x, rfl, hx⟩ := h
    obtain ⟨ms, h1, h2⟩ := ih
    refine ⟨x :: ms, .cons hx h1, ?_⟩
    rw [stdoutText, h2]
    rfl

/-- C117: `mbus-tcp-scan-secondary`: a line for each meter that can be told apart, with its address and the mask that selects it alone -/
theorem C117_tcp_scan_secondary (uninit : Buf 256) (os : Os) (buses : Target → Env) (p : Proc) (ha : AnswerOk p os.answer)
    (hdup : os.dup = true) (host port : Arg) (m : Option Arg)
    (hu : Usable os (.tcp host (atol port))) (env : Env) (henv : buses (.tcp host (atol port)) = env) (ho : IsOpen .tcp env) (hw : Mbus.Writable env)
    (devs : List Device) (hf : Faithful devs env) (hread : ∀ d ∈ devs, d.Readable)
    (hm : AddressMask (mask m)) (hid : ∀ c ∈ (mask m).take 8, IdDigit c) (before after : List (List Byte)) (hr : ResettableAll env before after) :
    ∃ sent' es ms, es.Nodup ∧ (∀ d, d ∈ es ↔ Isolated devs 0 (mask m) d) ∧ Pointwise (fun x (_ : Device) => Refines 0 (mask m) x) ms es ∧
      Succeeds (tcpScanSecondaryMain uninit os (wired buses) p ⟨[], before⟩ ([host, port] ++ maybe m)) p
        ((es.zip ms).flatMap fun v => deviceReport (addressText v.1.address) v.2) sent' := by
  have hmain := ((C116_tcp_scan_secondary uninit os (wired buses) p ⟨[], before⟩ _).2 _
    ((C115_tcp_scan_secondary _ _).mpr ⟨host, port, m, rfl, rfl⟩)).2 hdup hm hu ha
  obtain ⟨sent', ls, es, h1, h2, h3, h4⟩ := C94_wire_exact .tcp env ho hw 1 (by decide) ⟨3, 1, 1⟩ (by decide) devs hf hread (mask m) hm hid before after hr
  rw [← henv] at h1
  obtain ⟨ms, k1, k2⟩ := stdoutText_devices uninit [] _ ls es h4
  exact ⟨sent', es, ms, h2, h3, k1, succeeds_report _ _ _ 4 _ _ _ _ _ hmain h1 k2⟩

/-- C117: `mbus-serial-scan-secondary` likewise; one block of memory is not released -/
theorem C117_serial_scan_secondary_partial (uninit : Buf 256) (os : Os) (buses : Target → Env) (p : Proc) (ha : AnswerOk p os.answer)
    (hdup : os.dup = true ∧ os.frame = true) (d : Bool) (b : Option Arg) (device : Arg) (m : Option Arg) (hd : device ≠ cs! "-d")
    (hu : Usable os (.serial device (rate b))) (env : Env) (henv : buses (.serial device (rate b)) = env) (ho : IsOpen .serial env) (hw : Mbus.Writable env)
    (devs : List Device) (hf : Faithful devs env) (hread : ∀ d ∈ devs, d.Readable)
    (hm : AddressMask (mask m)) (hid : ∀ c ∈ (mask m).take 8, IdDigit c) (before after : List (List Byte)) (hr : ResettableAll env before after) :
    ∃ sent' es ms p' leaked, es.Nodup ∧ (∀ d, d ∈ es ↔ Isolated devs 0 (mask m) d) ∧ Pointwise (fun x (_ : Device) => Refines 0 (mask m) x) ms es ∧
      serialScanSecondaryMain uninit os (wired buses) p ⟨[], before⟩ (flag d ++ opt (cs! "-b") b ++ [device] ++ maybe m) =
        .ok ⟨0, resetNotes d ++ (es.zip ms).flatMap fun v => deviceReport (addressText v.1.address) v.2, ⟨[], sent'⟩, some p'⟩ ∧
      p'.live = leaked :: p.live ∧ p'.fds = p.fds := by
  have hmain := ((C116_serial_scan_secondary_partial uninit os (wired buses) p ⟨[], before⟩ _).2 _
    (C115_serial_scan_secondary_partial d b device m hd)).2 hdup hm hu ha
  obtain ⟨sent', ls, es, h1, h2, h3, h4⟩ := C94_wire_exact .serial env ho hw 1 (by decide) ⟨3, 1, 1⟩ (by decide) devs hf hread (mask m) hm hid before after hr
  rw [← henv] at h1
  obtain ⟨ms, k1, k2⟩ := stdoutText_devices uninit [] _ ls es h4
  refine ⟨sent', es, ms, ⟨p.next + 5, (p.next + 1) :: p.live, p.fds⟩, p.next + 1, h2, h3, k1, ?_, rfl, rfl⟩
  rw [hmain]
  exact report_ok _ _ _ _ 0 _ _ _ ((scanSecondaryD_alike d _ _ _ _).success h1) (stdoutText_append _ _ _ _ _ _ (initNotes_text uninit [] d) k2)

theorem printed_report {σ : Type} (uninit : Buf 256) (p' : Proc) (x : C (Exit σ)) (s : σ) (pre : List Line) (t : List Byte)
    (hpre : stdoutText uninit [] pre = .ok t) (doc : List Byte) (fate : XmlFate)
    (h : PrintedAs x (fun text => ⟨0, pre ++ [.xml text], s⟩) doc fate) : PrintedAs (report uninit [] p' x) (fun text => ⟨0, t ++ text, s, some p'⟩) doc fate := by
  cases fate with
  | outside =>
    obtain ⟨n, i, rfl⟩ := h
    exact ⟨n, i, rfl⟩
  | complete =>
    exact report_ok _ _ _ _ 0 _ _ _ h (stdoutText_append _ _ _ _ _ _ hpre (stdoutText_single _ _ _ _ rfl))
  | cut n =>
    exact ⟨h.1, report_ok _ _ _ _ 0 _ _ _ h.2 (stdoutText_append _ _ _ _ _ _ hpre (stdoutText_single _ _ _ _ rfl))⟩

/-- C117: `mbus-serial-request-data`: the meter answers with a telegram that consists of the records `rs` -/
theorem C117_serial_request (junk0 : Nat → Byte) (junk : Nat → Nat → Byte) (stamp : Option (List Byte)) (hst : ∀ s, stamp = some s → ∃ t, IsoText t s)
    (uninit : Buf 256) (os : Os) (buses : Target → Env) (q : Proc) (ha : AnswerOk q os.answer) (d : Bool) (b : Option Arg) (device addr : Arg)
    (hu : Usable os (.serial device (rate b))) (env : Env) (henv : buses (.serial device (rate b)) = env) (ho : IsOpen .serial env) (hw : Mbus.Writable env)
    (before ready after : List (List Byte)) (dest : Byte) (hi : Resettable env before ready) (hreach : Reachable env addr ready dest after)
    (c a : Byte) (p : List Byte) (hl : Spec.Telegram.Legal (.data c a 0x72 p)) (hdir : c &&& 0x40 = 0) (h12 : 12 ≤ p.length)
    (cs : List (List Byte)) (hcs : Chunks cs) (hw2 : cs.flatten = (Spec.Telegram.data c a 0x72 p).wire)
    (hr : env.respond (after ++ [(Spec.Telegram.short 0x5B dest).wire]) = evs cs)
    (h : VarHeader) (hh : HeaderIs h p) (rs : List Rec) (ht : Tiles (p.drop 12) rs) (units : List (List Byte)) (hl2 : units.length = rs.length)
    (hs : ∀ it ∈ (rs.map mkRec).zip (units.map (·, stamp)), Spec.Writable it) :
    ∃ name q', productName h = .ok name ∧ q'.live = q.live ∧ q'.fds = q.fds ∧
      PrintedAs (serialRequestMain junk0 junk stamp uninit os (wired buses) q ⟨[], before⟩ (flag d ++ opt (cs! "-b") b ++ [device, addr]))
        (fun text => ⟨0, resetNotes d ++ ifDebug d (unlines [telegramDump (.data c a 0x72 p)]) ++ text, ⟨[], after ++ [(Spec.Telegram.short 0x5B dest).wire]⟩, some q'⟩)
        (document (slaveGroup h name (mediumLookup h.medium) :: recordGroupsCut none 0 ((rs.map mkRec).zip (units.map (·, stamp)))))
        (xmlFate (startLength (slaveGroup h name (mediumLookup h.medium))) (whole (recordGroupsCut none 0 ((rs.map mkRec).zip (units.map (·, stamp)))))) := by
  have hmain := ((C116_serial_request junk0 junk stamp uninit os (wired buses) q ⟨[], before⟩ _).2 _
    ((C115_serial_request _ _).mpr ⟨d, b, device, addr, rfl, rfl⟩)).2 hu ha
  obtain ⟨name, pre, hn, htext, hp⟩ := C118_request_wire d true junk0 junk stamp hst .serial env ho hw 1 (by decide) before ready after addr dest hi hreach c a p hl hdir h12
    cs hcs hw2 hr h hh rs ht units hl2 hs uninit []
  refine ⟨name, { q with next := q.next + 3 }, hn, rfl, rfl, ?_⟩
  rw [hmain]
  rw [← henv] at hp
  exact printed_report _ _ _ _ pre _ htext _ _ hp

/-- C117: `mbus-tcp-request-data` -/
theorem C117_tcp_request (junk0 : Nat → Byte) (junk : Nat → Nat → Byte) (stamp : Option (List Byte)) (hst : ∀ s, stamp = some s → ∃ t, IsoText t s)
    (uninit : Buf 256) (os : Os) (buses : Target → Env) (q : Proc) (ha : AnswerOk q os.answer) (d : Bool) (host port addr : Arg)
    (hu : Usable os (.tcp host (atol port))) (env : Env) (henv : buses (.tcp host (atol port)) = env) (ho : IsOpen .tcp env) (hw : Mbus.Writable env)
    (before after : List (List Byte)) (dest : Byte) (hreach : Reachable env addr before dest after)
    (c a : Byte) (p : List Byte) (hl : Spec.Telegram.Legal (.data c a 0x72 p)) (hdir : c &&& 0x40 = 0) (h12 : 12 ≤ p.length)
    (cs : List (List Byte)) (hcs : Chunks cs) (hw2 : cs.flatten = (Spec.Telegram.data c a 0x72 p).wire)
    (hr : env.respond (after ++ [(Spec.Telegram.short 0x5B dest).wire]) = evs cs)
    (h : VarHeader) (hh : HeaderIs h p) (rs : List Rec) (ht : Tiles (p.drop 12) rs) (units : List (List Byte)) (hl2 : units.length = rs.length)
    (hs : ∀ it ∈ (rs.map mkRec).zip (units.map (·, stamp)), Spec.Writable it) :
    ∃ name q', productName h = .ok name ∧ q'.live = q.live ∧ q'.fds = q.fds ∧
      PrintedAs (tcpRequestMain junk0 junk stamp uninit os (wired buses) q ⟨[], before⟩ (flag d ++ [host, port, addr]))
        (fun text => ⟨0, ifDebug d (unlines [telegramDump (.data c a 0x72 p)]) ++ text, ⟨[], after ++ [(Spec.Telegram.short 0x5B dest).wire]⟩, some q'⟩)
        (document (slaveGroup h name (mediumLookup h.medium) :: recordGroupsCut none 0 ((rs.map mkRec).zip (units.map (·, stamp)))))
        (xmlFate (startLength (slaveGroup h name (mediumLookup h.medium))) (whole (recordGroupsCut none 0 ((rs.map mkRec).zip (units.map (·, stamp)))))) := by
  have hmain := ((C116_tcp_request junk0 junk stamp uninit os (wired buses) q ⟨[], before⟩ _).2 _
    ((C115_tcp_request _ _).mpr ⟨d, host, port, addr, rfl, rfl⟩)).2 hu ha
  obtain ⟨name, pre, hn, htext, hp⟩ := C118_request_wire d false junk0 junk stamp hst .tcp env ho hw 1 (by decide) before before after addr dest rfl hreach c a p hl hdir h12
    cs hcs hw2 hr h hh rs ht units hl2 hs uninit []
  refine ⟨name, { q with next := q.next + 3 }, hn, rfl, rfl, ?_⟩
  rw [hmain]
  rw [← henv] at hp
  exact printed_report _ _ _ _ pre _ htext _ _ hp

/-- C117: the multi-reply tools: the meter answers with the readout `ts`, loses at most three answers in a row, and the readout has at
most as many telegrams as -f allows.  `x` is either program with its command line. -/
theorem multi_printed (d : Bool) (junk0 : Nat → Byte) (junk : Nat → Nat → Byte) (stamps : Nat → Option (List Byte)) (hst : ∀ i s, stamps i = some s → ∃ t, IsoText t s)
    (uninit : Buf 256) (q' : Proc) (k : Kind) (env : Env) (ho : IsOpen k env) (hw : Mbus.Writable env)
    (before ready after : List (List Byte)) (addr : List Byte) (dest : Byte) (hi : Resettable env before ready) (hreach : Reachable env addr ready dest after)
    (ts : List Spec.Telegram) (hts : Readout ts) (fate : Nat → Fate) (henv : env.after after = meterEnv dest ts fate)
    (hnoise : ∀ n b, fate n = .noise b → b ≠ 0xE5 ∧ b ≠ 0x10 ∧ b ≠ 0x68)
    (hfair : ∀ n, ∃ j, j ≤ 3 ∧ fate (n + j) = .delivered) (mf : Int) (hmf : (ts.length : Int) ≤ mf)
    (h : VarHeader) (hh : ∀ c a ci p, ts.head? = some (.data c a ci p) → HeaderIs h p)
    (tss : List (List Item)) (hl : tss.length = ts.length) (hits : ∀ i (h1 : i < ts.length) (h2 : i < tss.length), TelegramReads ts[i] (stamps i) tss[i])
    (hs : ∀ its ∈ tss, ∀ it ∈ its, Spec.Writable it) (hc : total tss < 2 ^ 31) (hk : ts.length < 2 ^ 31) :
    ∃ name bus, productName h = .ok name ∧
      PrintedAs (report uninit [] q' (multiToolD d junk0 junk stamps ((busLink k env).ops 1) ⟨3, 1, 1⟩ ⟨[], before⟩ mf addr))
        (fun text => ⟨0, resetNotes d ++ ifDebug d (unlines (ts.map telegramDump)) ++ text, bus, some q'⟩)
        (document (slaveGroup h name (mediumLookup h.medium) :: readoutGroupsCut tss))
        (xmlFate (startLength (slaveGroup h name (mediumLookup h.medium))) (whole (readoutGroupsCut tss))) := by
  obtain ⟨name, bus, pre, h1, ht, h2⟩ := C118_multi_wire d junk0 junk stamps hst k env ho hw 1 (by decide) before ready after addr dest hi hreach ts hts fate henv hnoise
    ⟨3, 1, 1⟩ 3 rfl hfair mf hmf h hh tss hl hits hs hc hk uninit []
  exact ⟨name, bus, h1, printed_report _ _ _ _ pre _ ht _ _ h2⟩

/-- C117: `mbus-serial-request-data-multi-reply` -/
theorem C117_serial_multi (junk0 : Nat → Byte) (junk : Nat → Nat → Byte) (stamps : Nat → Option (List Byte)) (hst : ∀ i s, stamps i = some s → ∃ t, IsoText t s)
    (uninit : Buf 256) (os : Os) (buses : Target → Env) (q : Proc) (ha : AnswerOk q os.answer) (opts : List MultiOption) (device addr : Arg) (asked : Asked)
    (hasked : asked = opts.foldl MultiOption.apply { target := device, operands := [addr] })
    (hu : Usable os (.serial device asked.baud)) (env : Env) (henv : buses (.serial device asked.baud) = env) (ho : IsOpen .serial env) (hw : Mbus.Writable env)
    (before ready after : List (List Byte)) (dest : Byte) (hi : Resettable env before ready) (hreach : Reachable env addr ready dest after)
    (ts : List Spec.Telegram) (hts : Readout ts) (fate : Nat → Fate) (hmeter : env.after after = meterEnv dest ts fate)
    (hnoise : ∀ n b, fate n = .noise b → b ≠ 0xE5 ∧ b ≠ 0x10 ∧ b ≠ 0x68)
    (hfair : ∀ n, ∃ j, j ≤ 3 ∧ fate (n + j) = .delivered) (hmf : (ts.length : Int) ≤ asked.frames)
    (h : VarHeader) (hh : ∀ c a ci p, ts.head? = some (.data c a ci p) → HeaderIs h p)
    (tss : List (List Item)) (hl : tss.length = ts.length) (hits : ∀ i (h1 : i < ts.length) (h2 : i < tss.length), TelegramReads ts[i] (stamps i) tss[i])
    (hs : ∀ its ∈ tss, ∀ it ∈ its, Spec.Writable it) (hc : total tss < 2 ^ 31) (hk : ts.length < 2 ^ 31) :
    ∃ name bus q', productName h = .ok name ∧ q'.live = q.live ∧ q'.fds = q.fds ∧
      PrintedAs (serialMultiMain junk0 junk stamps uninit os (wired buses) q ⟨[], before⟩ (opts.flatMap MultiOption.words ++ [device, addr]))
        (fun text => ⟨0, resetNotes asked.debug ++ ifDebug asked.debug (unlines (ts.map telegramDump)) ++ text, bus, some q'⟩)
        (document (slaveGroup h name (mediumLookup h.medium) :: readoutGroupsCut tss))
        (xmlFate (startLength (slaveGroup h name (mediumLookup h.medium))) (whole (readoutGroupsCut tss))) := by
  have key : ∀ (os : List MultiOption) (c : Asked), (os.foldl MultiOption.apply c).target = c.target ∧ (os.foldl MultiOption.apply c).operands = c.operands := by
    intro os
    induction os with
    | nil => intro c; exact ⟨rfl, rfl⟩
    | cons x os ih => intro c; cases x <;> exact ih _
  obtain ⟨k1, k2⟩ := key opts { target := device, operands := [addr] }
  rw [← hasked] at k1 k2
  have hmain := (C116_serial_multi junk0 junk stamps uninit os (wired buses) q ⟨[], before⟩ _).2 asked
    ((C115_serial_multi _ _).mpr ⟨opts, device, addr, rfl, hasked⟩)
  rw [k1] at hmain
  have hop : asked.operand 0 = addr := by unfold Asked.operand; rw [k2]; rfl
  rw [hop] at hmain
  obtain ⟨name, bus, h1, h2⟩ := multi_printed asked.debug junk0 junk stamps hst uninit { q with next := q.next + 3 } .serial env ho hw before ready after addr dest hi hreach ts hts fate
    hmeter hnoise hfair asked.frames hmf h hh tss hl hits hs hc hk
  refine ⟨name, bus, { q with next := q.next + 3 }, h1, rfl, rfl, ?_⟩
  rw [hmain.2 hu ha]
  rw [← henv] at h2
  exact h2

/-- C117: `mbus-tcp-request-data-multi-reply` -/
theorem C117_tcp_multi (junk0 : Nat → Byte) (junk : Nat → Nat → Byte) (stamps : Nat → Option (List Byte)) (hst : ∀ i s, stamps i = some s → ∃ t, IsoText t s)
    (uninit : Buf 256) (os : Os) (buses : Target → Env) (q : Proc) (ha : AnswerOk q os.answer) (opts : List MultiOption) (hnb : ∀ v, MultiOption.baud v ∉ opts)
    (host port addr : Arg) (asked : Asked) (hasked : asked = opts.foldl MultiOption.apply { target := host, port := atol port, operands := [addr] })
    (hu : Usable os (.tcp host (atol port))) (env : Env) (henv : buses (.tcp host (atol port)) = env) (ho : IsOpen .tcp env) (hw : Mbus.Writable env)
    (before ready after : List (List Byte)) (dest : Byte) (hi : Resettable env before ready) (hreach : Reachable env addr ready dest after)
    (ts : List Spec.Telegram) (hts : Readout ts) (fate : Nat → Fate) (hmeter : env.after after = meterEnv dest ts fate)
    (hnoise : ∀ n b, fate n = .noise b → b ≠ 0xE5 ∧ b ≠ 0x10 ∧ b ≠ 0x68)
    (hfair : ∀ n, ∃ j, j ≤ 3 ∧ fate (n + j) = .delivered) (hmf : (ts.length : Int) ≤ asked.frames)
    (h : VarHeader) (hh : ∀ c a ci p, ts.head? = some (.data c a ci p) → HeaderIs h p)
    (tss : List (List Item)) (hl : tss.length = ts.length) (hits : ∀ i (h1 : i < ts.length) (h2 : i < tss.length), TelegramReads ts[i] (stamps i) tss[i])
    (hs : ∀ its ∈ tss, ∀ it ∈ its, Spec.Writable it) (hc : total tss < 2 ^ 31) (hk : ts.length < 2 ^ 31) :
    ∃ name bus q', productName h = .ok name ∧ q'.live = q.live ∧ q'.fds = q.fds ∧
      PrintedAs (tcpMultiMain junk0 junk stamps uninit os (wired buses) q ⟨[], before⟩ (opts.flatMap MultiOption.words ++ [host, port, addr]))
        (fun text => ⟨0, resetNotes asked.debug ++ ifDebug asked.debug (unlines (ts.map telegramDump)) ++ text, bus, some q'⟩)
        (document (slaveGroup h name (mediumLookup h.medium) :: readoutGroupsCut tss))
        (xmlFate (startLength (slaveGroup h name (mediumLookup h.medium))) (whole (readoutGroupsCut tss))) := by
  have key : ∀ (os : List MultiOption) (c : Asked), (os.foldl MultiOption.apply c).target = c.target ∧ (os.foldl MultiOption.apply c).operands = c.operands ∧
      (os.foldl MultiOption.apply c).port = c.port := by
    intro os
    induction os with
    | nil => intro c; exact ⟨rfl, rfl, rfl⟩
    | cons x os ih => intro c; cases x <;> exact ih _
  obtain ⟨k1, k2, k3⟩ := key opts { target := host, port := atol port, operands := [addr] }
  rw [← hasked] at k1 k2 k3
  have hmain := (C116_tcp_multi junk0 junk stamps uninit os (wired buses) q ⟨[], before⟩ _).2 asked
    ((C115_tcp_multi _ _).mpr ⟨opts, host, port, addr, hnb, rfl, hasked⟩)
  rw [k1, k3] at hmain
  have hop : asked.operand 0 = addr := by unfold Asked.operand; rw [k2]; rfl
  rw [hop] at hmain
  obtain ⟨name, bus, h1, h2⟩ := multi_printed asked.debug junk0 junk stamps hst uninit { q with next := q.next + 3 } .tcp env ho hw before ready after addr dest hi hreach ts hts fate
    hmeter hnoise hfair asked.frames hmf h hh tss hl hits hs hc hk
  refine ⟨name, bus, { q with next := q.next + 3 }, h1, rfl, rfl, ?_⟩
  rw [hmain.2 hu ha]
  rw [← henv] at h2
  exact h2

/-- C117: `mbus-tcp-raw-send` with a file that cannot be opened: status 1, but a meter named by its secondary address has been selected. -/
theorem C117_raw_send_no_file (raw : Buf 4096) (junk : Frame) (files : Arg → Option (List Byte)) (stdin : List Byte) (uninit : Buf 256) (os : Os)
    (buses : Target → Env) (p : Proc) (ha : AnswerOk p os.answer) (d : Bool) (host port addr name : Arg)
    (hd : d = false → host ≠ cs! "-d") (hu : Usable os (.tcp host (atol port))) (env : Env) (henv : buses (.tcp host (atol port)) = env)
    (ho : IsOpen .tcp env) (hw : Mbus.Writable env) (before after : List (List Byte)) (dest : Byte) (hreach : Reachable env addr before dest after)
    (hfile : files name = none) :
    Fails (rawSendMain raw junk files stdin uninit os (wired buses) p ⟨[], before⟩ (flag d ++ [host, port, addr, name])) 1 [] after := by
  have hmain := (((C116_raw_send raw junk files stdin uninit os (wired buses) p ⟨[], before⟩ (flag d ++ [host, port, addr] ++ maybe (some name))).2 _
    ((C115_tcp_optional _ _).mpr ⟨d, host, port, addr, some name, rfl, fun h _ => hd h, rfl⟩)).2 hu ha).2 hfile
  have hr := reach_wire .tcp env ho hw 1 (by decide) addr before dest after hreach
  rw [← henv] at hr
  refine ⟨by decide, none, ?_⟩
  rw [show flag d ++ [host, port, addr, name] = flag d ++ [host, port, addr] ++ maybe (some name) by cases d <;> rfl, hmain]
  show (reach ((busLink .tcp (buses (.tcp host (atol port)))).ops 1) ⟨[], before⟩ addr >>= _) = _
  rw [hr]
  rfl

/-! ### numbers in the output -/

/-- C117: the numbers in the output are read back by the command line. -/
theorem C117_decimal (n : Nat) : Numeral (fmtInt n) n := by
  have key : ∀ n, Numeral (decDigits n) n := by
    intro n
    induction n using Nat.strongRecOn with
    | _ n ih =>
      have hb : ∀ k, k < 10 → IsDec (UInt8.ofNat (48 + k)) ∧ (UInt8.ofNat (48 + k)).toNat - 48 = k := by
        intro k hk
        have : (UInt8.ofNat (48 + k)).toNat = 48 + k := by
          rw [UInt8.toNat_ofNat']
          omega
        unfold IsDec
        omega
      unfold decDigits
      split
      · rename_i h
        have := Numeral.digit (UInt8.ofNat (48 + n)) (hb n h).1
        rw [(hb n h).2] at this
        exact this
      · rename_i h
        have := Numeral.more (decDigits (n / 10)) (n / 10) (UInt8.ofNat (48 + n % 10)) (ih (n / 10) (by omega)) (hb (n % 10) (by omega)).1
        rw [(hb (n % 10) (by omega)).2, show 10 * (n / 10) + n % 10 = n by omega] at this
        exact this
  rw [fmtInt_nat]
  exact key n

/-! ### examples and violations -/

/-- an operating system that opens the device and whose second address accepts the connection -/
def kindOs : Os := ⟨true, true, true, 77, ⟨0, 0⟩, ⟨5, true, [none, some (5, true)]⟩, true, true, true⟩

theorem kind_serial (device : Arg) (b : Int) (hb : b ∈ [300, 600, 1200, 2400, 4800, 9600, 19200, 38400]) : Usable kindOs (.serial device b) :=
  ⟨⟨rfl, rfl, rfl⟩, by decide, rfl, hb⟩

theorem kind_tcp (host : Arg) (port : Int) (hp : 0 ≤ port ∧ port ≤ 65535) : Usable kindOs (.tcp host port) :=
  ⟨⟨rfl, rfl, rfl⟩, hp, rfl, 5, by decide⟩

theorem kind_answer : AnswerOk sampleProc kindOs.answer := by
  refine ⟨fun _ => ⟨by decide, by decide⟩, fun x hx d ok e => ?_⟩
  simp only [kindOs, List.mem_cons, List.not_mem_nil, or_false] at hx
  rcases hx with rfl | rfl
  · cases e
  · cases e; exact ⟨by decide, by decide⟩

/-- C117 is false of `mbus-serial-select-secondary` with -b: the line speed is printed as the address searched for. -/
theorem C117_searched_violation (junk : Frame) (wild : Bool) (uninit : Buf 256) :
    ∃ text sent, Succeeds (serialSelectMain junk wild uninit kindOs (wired fun _ => idealBus twoMeters) sampleProc ⟨[], []⟩
        [cs! "-b", cs! "2400", cs! "/dev/ttyUSB0", cs! "12345679FFFFFFFF"]) sampleProc text sent ∧
      text = replyReport (cs! "2400") (cs! "1234567924400107") ∧ text ≠ replyReport (cs! "12345679FFFFFFFF") (cs! "1234567924400107") := by
  have h := twoMeters_scannable .serial
  refine ⟨_, _, (C117_serial_select_partial junk wild uninit kindOs (fun _ => idealBus twoMeters) sampleProc kind_answer rfl (cs! "/dev/ttyUSB0")
    (cs! "12345679FFFFFFFF") (some (cs! "2400")) (kind_serial _ _ (by decide +kernel)) _ rfl h.opened h.writable twoMeters h.faithful h.readable
    (by unfold AddressMask; decide +kernel) (by decide +kernel) []).2 (twoMeters.getD 1 ⟨0, 0, []⟩) (by decide +kernel), by decide +kernel, by decide +kernel⟩

/-- C116 is false of `mbus-serial-scan-secondary`: a block of memory is not released. -/
theorem C116_leak_violation (uninit : Buf 256) :
    ∃ ran p', serialScanSecondaryMain uninit kindOs (wired fun _ => idealBus twoMeters) sampleProc ⟨[], []⟩ [cs! "/dev/ttyUSB0"] = .ok ran ∧
      ran.code = 0 ∧ ran.held = some p' ∧ p'.live.length = sampleProc.live.length + 1 := by
  have h := twoMeters_scannable .serial
  obtain ⟨sent', es, ms, p', l, _, _, _, e, h1, _⟩ := C117_serial_scan_secondary_partial uninit kindOs (fun _ => idealBus twoMeters) sampleProc kind_answer
    ⟨rfl, rfl⟩ false none (cs! "/dev/ttyUSB0") none (by decide) (kind_serial _ _ (by decide)) _ rfl h.opened h.writable twoMeters h.faithful h.readable
    (by unfold AddressMask; decide +kernel) (by decide +kernel) [] [pingWire 0xFD, pingWire 0xFF]
    ⟨rfl, ⟨[[0xFF]], (by unfold Chunks; decide), by decide +kernel⟩, ⟨[[0xFF]], (by unfold Chunks; decide), by decide +kernel⟩⟩
  exact ⟨_, p', e, rfl, rfl, by rw [h1]; rfl⟩

/-- C116 is false of the exit status: a line that is not accepted is no error for most tools. -/
theorem C116_status_violation {σ : Type} (uninit : Buf 256) (os : Os) (world : Target → Int → Ops σ) (p : Proc) (s : σ) :
    serialScanMain uninit os world p s [cs! "--help", cs! "/dev/ttyUSB0"] = .ok ⟨0, [], s, some p⟩ ∧
    tcpScanMain uninit os world p s [] = .ok ⟨0, [], s, some p⟩ := ⟨rfl, rfl⟩

/-- `mbus-serial-scan -b 2400 -r 1 /dev/ttyUSB0` on a bus with a meter at address 5 and two at 7 -/
example (uninit : Buf 256) : ∃ sent, Succeeds (serialScanMain uninit kindOs (wired fun _ => threeMeters) sampleProc ⟨[], []⟩
    [cs! "-b", cs! "2400", cs! "-r", cs! "1", cs! "/dev/ttyUSB0"]) sampleProc
    (cs! "Found a M-Bus device at address 5\nCollision at address 7\n") sent := by
  have h := C117_serial_scan uninit kindOs (fun _ => threeMeters) sampleProc kind_answer false (some (cs! "2400")) (some (cs! "1")) (cs! "/dev/ttyUSB0")
    (kind_serial _ _ (by decide +kernel)) threeMeters rfl (.inr rfl) (fun _ _ => rfl) [7, 5, 7] threeMeters_faithful (by decide +kernel) []
  rw [show ifDebug false (cs! "Scanning primary addresses:\n") ++ (List.range 251).flatMap (fun a =>
      scanNotes false (tries (some (cs! "1")) + 1).toNat [7, 5, 7] a ++ scanReport [7, 5, 7] a) =
    cs! "Found a M-Bus device at address 5\nCollision at address 7\n" by decide +kernel] at h
  exact ⟨_, h⟩

/-- the same with -d: what is printed about the addresses 4 to 8 -/
example : [4, 5, 6, 7, 8].flatMap (fun a => scanNotes true (tries (some (cs! "1")) + 1).toNat [7, 5, 7] a ++ scanReport [7, 5, 7] a) =
    cs! "4 4 5 Found a M-Bus device at address 5\n6 6 7 Collision at address 7\n8 8 " := by decide +kernel

/-- `mbus-serial-set-address -d /dev/ttyUSB0 0 5` -/
example (junk : Frame) (uninit : Buf 256) : Succeeds (setAddressMain junk uninit kindOs (wired fun _ => oneMeter) sampleProc ⟨[], []⟩
    [cs! "-d", cs! "/dev/ttyUSB0", cs! "0", cs! "5"]) sampleProc
    (cs! "init_slaves: debug: sending init frame #1\ninit_slaves: debug: sending init frame #2\nSet primary address of device to 5\n")
    [pingWire 0xFD, pingWire 0xFD, pingWire 5, (Spec.Telegram.data 0x53 0 0x51 [0x01, 0x7A, 5]).wire] := by
  have h := C117_set_address junk uninit kindOs (fun _ => oneMeter) sampleProc kind_answer true none (cs! "/dev/ttyUSB0") (cs! "0") (cs! "5")
    (kind_serial _ _ (by decide)) oneMeter rfl (by simp [IsOpen, oneMeter]) (fun _ _ => rfl) 5
    (.digit 53 (by decide)) (by decide) [] [pingWire 0xFD, pingWire 0xFD] [pingWire 0xFD, pingWire 0xFD, pingWire 5] 0
    ⟨rfl, ⟨[], by simp [Chunks], by decide⟩, [], by simp [Chunks], by decide⟩ (by decide)
    (.primary 0 (.digit 48 (by decide)) (fun h => absurd h.1 (by decide)) (by decide)) [[0xE5]] (by simp [Chunks]) rfl _ rfl (by decide)
  rw [show resetNotes true ++ (cs! "Set primary address of device to " ++ fmtInt ((5 : Nat) : Int) ++ cs! "\n") =
    cs! "init_slaves: debug: sending init frame #1\ninit_slaves: debug: sending init frame #2\nSet primary address of device to 5\n" by decide +kernel] at h
  exact h

/-- `mbus-serial-switch-baudrate /dev/ttyUSB0 1 2400` -/
example (junk : Frame) (wild : Bool) (uninit : Buf 256) : ∃ text sent, Succeeds (switchBaudMain junk wild uninit kindOs (wired fun _ => echoing [0xE5]) sampleProc ⟨[], []⟩
    [cs! "/dev/ttyUSB0", cs! "1", cs! "2400"]) sampleProc text sent :=
  ⟨_, _, C117_switch_baudrate junk wild uninit kindOs (fun _ => echoing [0xE5]) sampleProc kind_answer none (cs! "/dev/ttyUSB0") (cs! "1") (cs! "2400")
    (kind_serial _ _ (by decide)) _ rfl (by simp [IsOpen, echoing]) (fun _ _ => rfl) [] 1 (.digit 49 (by decide)) 2400
    (.more (cs! "240") 240 48 (.more (cs! "24") 24 48 (.more (cs! "2") 2 52 (.digit 50 (by decide)) (by decide)) (by decide)) (by decide))
    0xBB (by decide) _ rfl [[0xE5]] (by simp [Chunks]) rfl rfl⟩

/-- `mbus-tcp-application-reset gateway 10001 1234567824400107 16` -/
example (junk : Frame) (wild : Bool) (uninit : Buf 256) : Succeeds (resetMain junk wild uninit kindOs (wired fun _ => echoing [0xE5]) sampleProc ⟨[], []⟩
    [cs! "gateway", cs! "10001", cs! "1234567824400107", cs! "16"]) sampleProc (cs! "Successful reset device (Subcode: 16)\n")
    [[0x68, 0x0B, 0x0B, 0x68, 0x73, 0xFD, 0x52, 0x78, 0x56, 0x34, 0x12, 0x24, 0x40, 0x01, 0x07, 0x42, 0x16], [0x68, 4, 4, 0x68, 0x53, 0xFD, 0x50, 0x10, 0xB0, 0x16]] := by
  have h := C117_reset junk wild uninit kindOs (fun _ => echoing [0xE5]) sampleProc kind_answer false (cs! "gateway") (cs! "10001") (cs! "1234567824400107") (some (cs! "16"))
    (fun _ _ => by decide) (kind_tcp _ _ (by decide +kernel)) _ rfl (by simp [IsOpen, echoing]) (fun _ _ => rfl) []
    [[0x68, 0x0B, 0x0B, 0x68, 0x73, 0xFD, 0x52, 0x78, 0x56, 0x34, 0x12, 0x24, 0x40, 0x01, 0x07, 0x42, 0x16]] 0xFD
    (.secondary [[0xE5]] (by unfold AddressMask; decide +kernel) (by decide +kernel) (by simp [Chunks]) rfl rfl) (by decide +kernel) _ rfl [[0xE5]] (by simp [Chunks]) rfl rfl
  rw [show resetReport (subcode (some (cs! "16"))) = cs! "Successful reset device (Subcode: 16)\n" by decide +kernel] at h
  exact h

/-- `mbus-tcp-raw-send gateway 10001 1` with the telegram on standard input -/
example (raw : Buf 4096) (junk : Frame) (files : Arg → Option (List Byte)) (uninit : Buf 256) :
    Succeeds (rawSendMain raw junk files (cs! "10 40 01\n41 16\n") uninit kindOs (wired fun _ => ackBus) sampleProc ⟨[], []⟩
      [cs! "gateway", cs! "10001", cs! "1"]) sampleProc [] [(Spec.Telegram.short 0x40 1).wire] :=
  (C117_raw_send raw junk files _ uninit kindOs (fun _ => ackBus) sampleProc kind_answer false (cs! "gateway") (cs! "10001") (cs! "1") none (fun _ h => absurd rfl h)
    (kind_tcp _ _ (by decide +kernel)) ackBus rfl (by simp [IsOpen, ackBus]) (fun _ _ => rfl) [] [] 1
    (.primary 1 (.digit 49 (by decide)) (fun h => absurd h.1 (by decide)) (by decide)) (.short 0x40 1) (by decide) _ rfl rawText (by decide)).1
    .ack [[0xE5]] trivial trivial (by simp [Chunks]) (by decide) rfl

/-- a file that does not exist -/
example (raw : Buf 4096) (junk : Frame) (uninit : Buf 256) :
    Fails (rawSendMain raw junk (fun _ => none) [] uninit kindOs (wired fun _ => echoing [0xE5]) sampleProc ⟨[], []⟩
      [cs! "gateway", cs! "10001", cs! "1234567824400107", cs! "telegram.hex"]) 1 []
      [[0x68, 0x0B, 0x0B, 0x68, 0x73, 0xFD, 0x52, 0x78, 0x56, 0x34, 0x12, 0x24, 0x40, 0x01, 0x07, 0x42, 0x16]] :=
  C117_raw_send_no_file raw junk _ _ uninit kindOs (fun _ => echoing [0xE5]) sampleProc kind_answer false (cs! "gateway") (cs! "10001") (cs! "1234567824400107")
    (cs! "telegram.hex") (fun _ => by decide) (kind_tcp _ _ (by decide +kernel)) _ rfl (by simp [IsOpen, echoing]) (fun _ _ => rfl) [] _ 0xFD
    (.secondary [[0xE5]] (by unfold AddressMask; decide +kernel) (by decide +kernel) (by simp [Chunks]) rfl rfl) rfl

/-- C117 is false of `mbus-tcp-request-data` for long documents: only the beginning is printed, with status 0. -/
theorem C117_cut_violation (junk0 : Nat → Byte) (junk : Nat → Nat → Byte) (uninit : Buf 256) : ∃ doc,
    doc = document (slaveGroup hdrHeader [] (mediumLookup hdrHeader.medium) :: recordGroupsCut none 0 (List.replicate 32 flowItem ++ [edgeItem])) ∧
    8191 < doc.length ∧ ∃ sent,
    Succeeds (tcpRequestMain junk0 junk none uninit kindOs (wired fun _ => edgeBus) sampleProc ⟨[], []⟩ [cs! "gateway", cs! "10001", cs! "1"]) sampleProc
      (doc.take 8191) sent := by
  obtain ⟨doc, hd, hlen, h⟩ := C91_cut_violation .tcp junk0 junk
  refine ⟨doc, hd, hlen, [(Spec.Telegram.short 0x5B 1).wire], ?_⟩
  have hmain := ((C116_tcp_request junk0 junk none uninit kindOs (wired fun _ => edgeBus) sampleProc ⟨[], []⟩ _).2 _
    ((C115_tcp_request [cs! "gateway", cs! "10001", cs! "1"] _).mpr ⟨false, cs! "gateway", cs! "10001", cs! "1", rfl, rfl⟩)).2 (kind_tcp _ _ (by decide +kernel)) kind_answer
  obtain ⟨e', h1, _, _, _, h2⟩ := (C118_request_same false false junk0 junk none _ _ _).ok_of h
  rw [h2 rfl] at h1
  exact succeeds_report _ _ _ 3 _ _ _ _ _ hmain h1 (stdoutText_single _ _ _ _ rfl)

/-- `mbus-tcp-scan gateway 10001` -/
example (uninit : Buf 256) := C117_tcp_scan uninit kindOs (fun _ => threeMeters) sampleProc kind_answer false (some (cs! "1")) (cs! "gateway") (cs! "10001")
  (kind_tcp _ _ (by decide +kernel)) threeMeters rfl (.inr rfl) (fun _ _ => rfl) [7, 5, 7] threeMeters_faithful (by decide +kernel) []

/-- `mbus-serial-select-secondary -b 2400 /dev/ttyUSB0 12345679FFFFFFFF` (the rate is printed instead of the address) -/
example (junk : Frame) (wild : Bool) (uninit : Buf 256) : Succeeds (serialSelectMain junk wild uninit kindOs (wired fun _ => idealBus twoMeters) sampleProc ⟨[], []⟩
    [cs! "-b", cs! "2400", cs! "/dev/ttyUSB0", cs! "12345679FFFFFFFF"]) sampleProc (replyReport (cs! "2400") (cs! "1234567924400107"))
    [selectionWire [0x79, 0x56, 0x34, 0x12, 0xFF, 0xFF, 0xFF, 0xFF], requestWire] := by
  have h := twoMeters_scannable .serial
  exact (C117_serial_select_partial junk wild uninit kindOs (fun _ => idealBus twoMeters) sampleProc kind_answer rfl (cs! "/dev/ttyUSB0") (cs! "12345679FFFFFFFF")
    (some (cs! "2400")) (kind_serial _ _ (by decide +kernel)) _ rfl h.opened h.writable twoMeters h.faithful h.readable (by unfold AddressMask; decide +kernel)
    (by decide +kernel) []).2 (twoMeters.getD 1 ⟨0, 0, []⟩) (by decide +kernel)

/-- `mbus-tcp-select-secondary gateway 10001 12345679FFFFFFFF` -/
example (junk : Frame) (wild : Bool) (uninit : Buf 256) : Succeeds (tcpSelectMain junk wild uninit kindOs (wired fun _ => idealBus twoMeters) sampleProc ⟨[], []⟩
    [cs! "gateway", cs! "10001", cs! "12345679FFFFFFFF"]) sampleProc (replyReport (cs! "12345679FFFFFFFF") (cs! "1234567924400107"))
    [selectionWire [0x79, 0x56, 0x34, 0x12, 0xFF, 0xFF, 0xFF, 0xFF], requestWire] := by
  have h := twoMeters_scannable .tcp
  exact (C117_tcp_select junk wild uninit kindOs (fun _ => idealBus twoMeters) sampleProc kind_answer rfl (cs! "gateway") (cs! "10001") (cs! "12345679FFFFFFFF")
    (kind_tcp _ _ (by decide +kernel)) _ rfl h.opened h.writable twoMeters h.faithful h.readable (by unfold AddressMask; decide +kernel)
    (by decide +kernel) []).2 (twoMeters.getD 1 ⟨0, 0, []⟩) (by decide +kernel)

/-- `mbus-tcp-scan-secondary gateway 10001` -/
example (uninit : Buf 256) := C117_tcp_scan_secondary uninit kindOs (fun _ => idealBus twoMeters) sampleProc kind_answer rfl (cs! "gateway") (cs! "10001") none
  (kind_tcp _ _ (by decide +kernel)) _ rfl (twoMeters_scannable .tcp).opened (twoMeters_scannable .tcp).writable twoMeters (twoMeters_scannable .tcp).faithful
  (twoMeters_scannable .tcp).readable (by unfold AddressMask; decide +kernel) (by decide +kernel) [] [pingWire 0xFD, pingWire 0xFF]
  ⟨rfl, ⟨[[0xFF]], (by unfold Chunks; decide), by decide +kernel⟩, ⟨[[0xFF]], (by unfold Chunks; decide), by decide +kernel⟩⟩

/-- `mbus-serial-request-data -d /dev/ttyUSB0 1` -/
example (junk0 : Nat → Byte) (junk : Nat → Nat → Byte) (uninit : Buf 256) := C117_serial_request junk0 junk volumeItem.2.2 volume_stamp uninit kindOs
  (fun _ => volumeBus) sampleProc kind_answer true none (cs! "/dev/ttyUSB0") (cs! "1") (kind_serial _ _ (by decide)) volumeBus rfl
  (by simp [IsOpen, volumeBus]) (fun _ _ => rfl) [] [pingWire 0xFD, pingWire 0xFD] [pingWire 0xFD, pingWire 0xFD] 1
  ⟨rfl, ⟨[], by simp [Chunks], by decide⟩, [[0xE5]], by simp [Chunks], by decide⟩ (volume_primary _ _) 0x08 1 (hdr ++ [0x01, 0x13, 5]) ⟨by decide, by decide⟩
  (by decide) (by decide)
  [volumeWire.wire.take 1, (volumeWire.wire.drop 1).take 7, volumeWire.wire.drop 8] (by unfold Chunks; decide +kernel) (by decide +kernel) (by decide +kernel)
  hdrHeader (by unfold HeaderIs; decide) [.value 0x01 [] 0x13 [] [] [5]] volume_tiles [cs! "Volume (m m^3)"] rfl
  (by intro it hit; have : it = volumeItem := List.mem_singleton.mp hit; rw [this]; exact volume_writable)

/-- `mbus-tcp-request-data gateway 10001 1` -/
example (junk0 : Nat → Byte) (junk : Nat → Nat → Byte) (uninit : Buf 256) := C117_tcp_request junk0 junk volumeItem.2.2 volume_stamp uninit kindOs
  (fun _ => volumeBus) sampleProc kind_answer false (cs! "gateway") (cs! "10001") (cs! "1") (kind_tcp _ _ (by decide +kernel)) volumeBus rfl
  (by simp [IsOpen, volumeBus]) (fun _ _ => rfl) [pingWire 0xFD, pingWire 0xFD] [pingWire 0xFD, pingWire 0xFD] 1
  (volume_primary _ _) 0x08 1 (hdr ++ [0x01, 0x13, 5]) ⟨by decide, by decide⟩
  (by decide) (by decide)
  [volumeWire.wire.take 1, (volumeWire.wire.drop 1).take 7, volumeWire.wire.drop 8] (by unfold Chunks; decide +kernel) (by decide +kernel) (by decide +kernel)
  hdrHeader (by unfold HeaderIs; decide) [.value 0x01 [] 0x13 [] [] [5]] volume_tiles [cs! "Volume (m m^3)"] rfl
  (by intro it hit; have : it = volumeItem := List.mem_singleton.mp hit; rw [this]; exact volume_writable)

/-- `mbus-serial-request-data-multi-reply -d -f 3 /dev/ttyUSB0 1` -/
example (junk0 : Nat → Byte) (junk : Nat → Nat → Byte) (uninit : Buf 256) := C117_serial_multi junk0 junk (fun _ => volumeItem.2.2) (fun _ => volume_stamp) uninit kindOs
  (fun _ => lossyBus) sampleProc kind_answer [.debug, .frames (cs! "3")] (cs! "/dev/ttyUSB0") (cs! "1") _ rfl (kind_serial _ _ (by decide +kernel)) lossyBus rfl
  (by simp [IsOpen, lossyBus]) (fun _ _ => rfl) [] [pingWire 0xFD, pingWire 0xFD] [pingWire 0xFD, pingWire 0xFD] 1
  ⟨rfl, ⟨[], by simp [Chunks], by decide⟩, [], by simp [Chunks], by decide⟩ (volume_primary _ _) [volumeWire] volume_readout _ lossyBus_after
  (by intro n b h; split at h <;> cases h) (by intro n; refine ⟨1, by decide, by simp⟩) (by decide +kernel) hdrHeader (by intro c a ci p h; cases h; rfl) [[volumeItem]] rfl
  volume_telegram_reads (by
    intro its h it hit
    rw [List.mem_singleton.mp h] at hit
    rw [List.mem_singleton.mp hit]
    exact volume_writable) (by decide) (by decide)

/-- `mbus-tcp-request-data-multi-reply gateway 10001 1` -/
example (junk0 : Nat → Byte) (junk : Nat → Nat → Byte) (uninit : Buf 256) := C117_tcp_multi junk0 junk (fun _ => volumeItem.2.2) (fun _ => volume_stamp) uninit kindOs
  (fun _ => lossyBus) sampleProc kind_answer [] (by simp) (cs! "gateway") (cs! "10001") (cs! "1") _ rfl (kind_tcp _ _ (by decide +kernel)) lossyBus rfl
  (by simp [IsOpen, lossyBus]) (fun _ _ => rfl) [] [pingWire 0xFD, pingWire 0xFD] [pingWire 0xFD, pingWire 0xFD] 1
  ⟨rfl, ⟨[], by simp [Chunks], by decide⟩, [], by simp [Chunks], by decide⟩ (volume_primary _ _) [volumeWire] volume_readout _ lossyBus_after
  (by intro n b h; split at h <;> cases h) (by intro n; refine ⟨1, by decide, by simp⟩) (by decide +kernel) hdrHeader (by intro c a ci p h; cases h; rfl) [[volumeItem]] rfl
  volume_telegram_reads (by
    intro its h it hit
    rw [List.mem_singleton.mp h] at hit
    rw [List.mem_singleton.mp hit]
    exact volume_writable) (by decide) (by decide)

end Mbus
