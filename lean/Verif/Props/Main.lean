import Verif.Lemmas.Main
import Verif.Props.CmdLine
import Verif.Props.Tools
import Verif.Props.ToolCommands
import Verif.Props.ToolRaw
import Verif.Props.ToolSelect
import Verif.Props.ToolScanExact
import Verif.Props.ToolExact
import Verif.Props.Debug
/-
C116: the command line tools as whole programs.  For each tool: a line that is not accepted (C115) has no effect; without the
connection nothing is transmitted or printed; otherwise the program is the tool on the connected handle (C87-C95, C118), on the target named
on the command line and with the default options, and all memory and descriptors are released.
-/
namespace Mbus
open Spec

/-- C116: `mbus-serial-request-data` -/
theorem C116_serial_request {σ : Type} (junk0 : Nat → Byte) (junk : Nat → Nat → Byte) (stamp : Option (List Byte)) (uninit : Buf 256) (os : Os) (world : Target → Int → Ops σ) (p : Proc) (s : σ) (args : List Arg) :
    (serialRequestArgs args = none → serialRequestMain junk0 junk stamp uninit os world p s args = .ok ⟨0, [], s, some p⟩) ∧
    ∀ c, serialRequestArgs args = some c →
      (¬ Usable os (.serial c.target c.baud) → serialRequestMain junk0 junk stamp uninit os world p s args = .ok ⟨1, [], s, none⟩) ∧
      (Usable os (.serial c.target c.baud) → AnswerOk p os.answer →
        serialRequestMain junk0 junk stamp uninit os world p s args = report uninit [] { p with next := p.next + 3 } (requestToolD c.debug true junk0 junk stamp (world (.serial c.target c.baud) 1) s (c.operand 0))) := by
  refine ⟨fun h => by unfold serialRequestMain; rw [h]; rfl, fun c h => ⟨fun hu => ?_, fun hu ha => ?_⟩⟩
  · unfold serialRequestMain
    rw [h]
    exact onSerial_refused _ _ _ _ _ _ _ _ _ hu
  · unfold serialRequestMain
    rw [h]
    exact onSerial_usable _ _ _ _ _ _ _ _ _ hu ha

/-- C116: `mbus-tcp-request-data` -/
theorem C116_tcp_request {σ : Type} (junk0 : Nat → Byte) (junk : Nat → Nat → Byte) (stamp : Option (List Byte)) (uninit : Buf 256) (os : Os) (world : Target → Int → Ops σ) (p : Proc) (s : σ) (args : List Arg) :
    (tcpRequestArgs args = none → tcpRequestMain junk0 junk stamp uninit os world p s args = .ok ⟨0, [], s, some p⟩) ∧
    ∀ c, tcpRequestArgs args = some c →
      (¬ Usable os (.tcp c.target c.port) → tcpRequestMain junk0 junk stamp uninit os world p s args = .ok ⟨1, [], s, none⟩) ∧
      (Usable os (.tcp c.target c.port) → AnswerOk p os.answer →
        tcpRequestMain junk0 junk stamp uninit os world p s args = report uninit [] { p with next := p.next + 3 } (requestToolD c.debug false junk0 junk stamp (world (.tcp c.target c.port) 1) s (c.operand 0))) := by
  refine ⟨fun h => by unfold tcpRequestMain; rw [h]; rfl, fun c h => ⟨fun hu => ?_, fun hu ha => ?_⟩⟩
  · unfold tcpRequestMain
    rw [h]
    exact onTcp_refused _ _ _ _ _ _ _ _ _ hu
  · unfold tcpRequestMain
    rw [h]
    exact onTcp_usable _ _ _ _ _ _ _ _ _ hu ha

/-- C116: `mbus-serial-request-data-multi-reply` -/
theorem C116_serial_multi {σ : Type} (junk0 : Nat → Byte) (junk : Nat → Nat → Byte) (stamps : Nat → Option (List Byte)) (uninit : Buf 256) (os : Os) (world : Target → Int → Ops σ) (p : Proc) (s : σ) (args : List Arg) :
    (serialMultiArgs args = none → serialMultiMain junk0 junk stamps uninit os world p s args = .ok ⟨1, [], s, some p⟩) ∧
    ∀ c, serialMultiArgs args = some c →
      (¬ Usable os (.serial c.target c.baud) → serialMultiMain junk0 junk stamps uninit os world p s args = .ok ⟨1, [], s, none⟩) ∧
      (Usable os (.serial c.target c.baud) → AnswerOk p os.answer →
        serialMultiMain junk0 junk stamps uninit os world p s args = report uninit [] { p with next := p.next + 3 } (multiToolD c.debug junk0 junk stamps (world (.serial c.target c.baud) 1) ⟨3, 1, 1⟩ s c.frames (c.operand 0))) := by
  refine ⟨fun h => by unfold serialMultiMain; rw [h]; rfl, fun c h => ⟨fun hu => ?_, fun hu ha => ?_⟩⟩
  · unfold serialMultiMain
    rw [h]
    exact onSerial_refused _ _ _ _ _ _ _ _ _ hu
  · unfold serialMultiMain
    rw [h]
    exact onSerial_usable _ _ _ _ _ _ _ _ _ hu ha

/-- C116: `mbus-tcp-request-data-multi-reply` -/
theorem C116_tcp_multi {σ : Type} (junk0 : Nat → Byte) (junk : Nat → Nat → Byte) (stamps : Nat → Option (List Byte)) (uninit : Buf 256) (os : Os) (world : Target → Int → Ops σ) (p : Proc) (s : σ) (args : List Arg) :
    (tcpMultiArgs args = none → tcpMultiMain junk0 junk stamps uninit os world p s args = .ok ⟨1, [], s, some p⟩) ∧
    ∀ c, tcpMultiArgs args = some c →
      (¬ Usable os (.tcp c.target c.port) → tcpMultiMain junk0 junk stamps uninit os world p s args = .ok ⟨1, [], s, none⟩) ∧
      (Usable os (.tcp c.target c.port) → AnswerOk p os.answer →
        tcpMultiMain junk0 junk stamps uninit os world p s args = report uninit [] { p with next := p.next + 3 } (multiToolD c.debug junk0 junk stamps (world (.tcp c.target c.port) 1) ⟨3, 1, 1⟩ s c.frames (c.operand 0))) := by
  refine ⟨fun h => by unfold tcpMultiMain; rw [h]; rfl, fun c h => ⟨fun hu => ?_, fun hu ha => ?_⟩⟩
  · unfold tcpMultiMain
    rw [h]
    exact onTcp_refused _ _ _ _ _ _ _ _ _ hu
  · unfold tcpMultiMain
    rw [h]
    exact onTcp_usable _ _ _ _ _ _ _ _ _ hu ha

/-- C116: `mbus-serial-scan` -/
theorem C116_serial_scan {σ : Type} (uninit : Buf 256) (os : Os) (world : Target → Int → Ops σ) (p : Proc) (s : σ) (args : List Arg) :
    (serialScanArgs args = none → serialScanMain uninit os world p s args = .ok ⟨0, [], s, some p⟩) ∧
    ∀ c, serialScanArgs args = some c →
      (¬ Usable os (.serial c.target c.baud) → serialScanMain uninit os world p s args = .ok ⟨1, [], s, none⟩) ∧
      (Usable os (.serial c.target c.baud) → AnswerOk p os.answer →
        serialScanMain uninit os world p s args = report uninit [] { p with next := p.next + 3 } (scanToolD c.debug (world (.serial c.target c.baud) 1) ⟨3, 1, 1⟩ s c.retries)) := by
  refine ⟨fun h => by unfold serialScanMain; rw [h]; rfl, fun c h => ⟨fun hu => ?_, fun hu ha => ?_⟩⟩
  · unfold serialScanMain
    rw [h]
    exact onSerial_refused _ _ _ _ _ _ _ _ _ hu
  · unfold serialScanMain
    rw [h]
    exact onSerial_usable _ _ _ _ _ _ _ _ _ hu ha

/-- C116: `mbus-tcp-scan` -/
theorem C116_tcp_scan {σ : Type} (uninit : Buf 256) (os : Os) (world : Target → Int → Ops σ) (p : Proc) (s : σ) (args : List Arg) :
    (tcpScanArgs args = none → tcpScanMain uninit os world p s args = .ok ⟨0, [], s, some p⟩) ∧
    ∀ c, tcpScanArgs args = some c →
      (¬ Usable os (.tcp c.target c.port) → tcpScanMain uninit os world p s args = .ok ⟨1, [], s, none⟩) ∧
      (Usable os (.tcp c.target c.port) → AnswerOk p os.answer →
        tcpScanMain uninit os world p s args = report uninit [] { p with next := p.next + 3 } (scanToolD c.debug (world (.tcp c.target c.port) 1) ⟨3, 1, 1⟩ s c.retries)) := by
  refine ⟨fun h => by unfold tcpScanMain; rw [h]; rfl, fun c h => ⟨fun hu => ?_, fun hu ha => ?_⟩⟩
  · unfold tcpScanMain
    rw [h]
    exact onTcp_refused _ _ _ _ _ _ _ _ _ hu
  · unfold tcpScanMain
    rw [h]
    exact onTcp_usable _ _ _ _ _ _ _ _ _ hu ha

/-- C116: `mbus-serial-switch-baudrate` -/
theorem C116_switch_baudrate {σ : Type} (junk : Frame) (wild : Bool) (uninit : Buf 256) (os : Os) (world : Target → Int → Ops σ) (p : Proc) (s : σ) (args : List Arg) :
    (switchBaudArgs args = none → switchBaudMain junk wild uninit os world p s args = .ok ⟨0, [], s, some p⟩) ∧
    ∀ c, switchBaudArgs args = some c →
      (¬ Usable os (.serial c.target c.baud) → switchBaudMain junk wild uninit os world p s args = .ok ⟨1, [], s, none⟩) ∧
      (Usable os (.serial c.target c.baud) → AnswerOk p os.answer →
        switchBaudMain junk wild uninit os world p s args = report uninit [] { p with next := p.next + 3 } (switchBaudTool junk wild (world (.serial c.target c.baud) 1) s (atoi (c.operand 0)) (atol (c.operand 1)))) := by
  refine ⟨fun h => by unfold switchBaudMain; rw [h]; rfl, fun c h => ⟨fun hu => ?_, fun hu ha => ?_⟩⟩
  · unfold switchBaudMain
    rw [h]
    exact onSerial_refused _ _ _ _ _ _ _ _ _ hu
  · unfold switchBaudMain
    rw [h]
    exact onSerial_usable _ _ _ _ _ _ _ _ _ hu ha

/-- C116: `mbus-tcp-application-reset` -/
theorem C116_reset {σ : Type} (junk : Frame) (wild : Bool) (uninit : Buf 256) (os : Os) (world : Target → Int → Ops σ) (p : Proc) (s : σ) (args : List Arg) :
    (tcpOptionalArgs args = none → resetMain junk wild uninit os world p s args = .ok ⟨0, [], s, some p⟩) ∧
    ∀ c, tcpOptionalArgs args = some c →
      (¬ Usable os (.tcp c.target c.port) → resetMain junk wild uninit os world p s args = .ok ⟨1, [], s, none⟩) ∧
      (Usable os (.tcp c.target c.port) → AnswerOk p os.answer →
        resetMain junk wild uninit os world p s args = report uninit [] { p with next := p.next + 3 } (resetTool junk wild (world (.tcp c.target c.port) 1) s (c.operand 0) c.subcode)) := by
  refine ⟨fun h => by unfold resetMain; rw [h]; rfl, fun c h => ⟨fun hu => ?_, fun hu ha => ?_⟩⟩
  · unfold resetMain
    rw [h]
    exact onTcp_refused _ _ _ _ _ _ _ _ _ hu
  · unfold resetMain
    rw [h]
    exact onTcp_usable _ _ _ _ _ _ _ _ _ hu ha

theorem new_address_refused (n : Int) : (isPrimaryAddress n = false ∨ n = 0xFD ∨ n = 0xFE ∨ n = 0xFF) ↔ ¬ (0 ≤ n ∧ n ≤ 252) := by
  unfold isPrimaryAddress
  simp only [Bool.and_eq_false_iff, decide_eq_false_iff_not]
  omega

/-- C116: `mbus-serial-set-address` -/
theorem C116_set_address {σ : Type} (junk : Frame) (uninit : Buf 256) (os : Os) (world : Target → Int → Ops σ) (p : Proc) (s : σ) (args : List Arg) :
    (setAddressArgs args = none → setAddressMain junk uninit os world p s args = .ok ⟨0, [], s, some p⟩) ∧
    ∀ c, setAddressArgs args = some c →
      (¬ (0 ≤ atoi (c.operand 1) ∧ atoi (c.operand 1) ≤ 252) → setAddressMain junk uninit os world p s args = .ok ⟨-1, [], s, none⟩) ∧
      (0 ≤ atoi (c.operand 1) ∧ atoi (c.operand 1) ≤ 252 →
        (¬ Usable os (.serial c.target c.baud) → setAddressMain junk uninit os world p s args = .ok ⟨1, [], s, none⟩) ∧
        (Usable os (.serial c.target c.baud) → AnswerOk p os.answer →
          setAddressMain junk uninit os world p s args =
            report uninit [] { p with next := p.next + 3 } (setAddressToolD c.debug junk (world (.serial c.target c.baud) 1) s (c.operand 0) (c.operand 1)))) := by
  refine ⟨fun h => by unfold setAddressMain; rw [h]; rfl, fun c h => ⟨fun hn => ?_, fun hn => ⟨fun hu => ?_, fun hu ha => ?_⟩⟩⟩
  · unfold setAddressMain
    rw [h]
    dsimp only
    rw [if_pos ((new_address_refused _).mpr hn)]
  · unfold setAddressMain
    rw [h]
    dsimp only
    rw [if_neg (fun k => (new_address_refused _).mp k hn)]
    exact onSerial_refused _ _ _ _ _ _ _ _ _ hu
  · unfold setAddressMain
    rw [h]
    dsimp only
    rw [if_neg (fun k => (new_address_refused _).mp k hn)]
    exact onSerial_usable _ _ _ _ _ _ _ _ _ hu ha

/-- C116: `mbus-tcp-raw-send`: a file that cannot be opened is noticed when the meter has been selected -/
theorem C116_raw_send {σ : Type} (raw : Buf 4096) (junk : Frame) (files : Arg → Option (List Byte)) (stdin : List Byte) (uninit : Buf 256) (os : Os)
    (world : Target → Int → Ops σ) (p : Proc) (s : σ) (args : List Arg) :
    (tcpOptionalArgs args = none → rawSendMain raw junk files stdin uninit os world p s args = .ok ⟨0, [], s, some p⟩) ∧
    ∀ c, tcpOptionalArgs args = some c →
      (¬ Usable os (.tcp c.target c.port) → rawSendMain raw junk files stdin uninit os world p s args = .ok ⟨1, [], s, none⟩) ∧
      (Usable os (.tcp c.target c.port) → AnswerOk p os.answer →
        (∀ text, c.source files stdin = some text → rawSendMain raw junk files stdin uninit os world p s args =
          report uninit [] { p with next := p.next + 3 } (rawSendTool raw junk (world (.tcp c.target c.port) 1) s (c.operand 0) text)) ∧
        (c.source files stdin = none → rawSendMain raw junk files stdin uninit os world p s args =
          (reach (world (.tcp c.target c.port) 1) s (c.operand 0) >>= fun r => .ok ⟨1, [], r.2, none⟩))) := by
  refine ⟨fun h => by unfold rawSendMain; rw [h]; rfl, fun c h => ⟨fun hu => ?_, fun hu ha => ⟨fun text ht => ?_, fun ht => ?_⟩⟩⟩
  · unfold rawSendMain
    rw [h]
    exact onTcp_refused _ _ _ _ _ _ _ _ _ hu
  · unfold rawSendMain
    rw [h]
    dsimp only
    rw [onTcp_usable _ _ _ _ _ _ _ _ _ hu ha, ht]
    rfl
  · unfold rawSendMain
    rw [h]
    dsimp only
    rw [onTcp_usable _ _ _ _ _ _ _ _ _ hu ha, ht]
    dsimp only
    cases reach (world (.tcp c.target c.port) 1) s (c.operand 0) with
    | error e => rfl
    | ok r => rfl

theorem dropCopy_report {σ : Type} (uninit : Buf 256) (searched : Arg) (n a : Nat) (before after : List Nat) (fds : List (Int × Bool)) (x : C (Exit σ))
    (hfree : Proc.free ⟨n, before, fds⟩ a = .ok ⟨n, after, fds⟩) :
    (report uninit searched ⟨n, before, fds⟩ x >>= fun r => dropCopy a r) = report uninit searched ⟨n, after, fds⟩ x := by
  unfold report
  cases x with
  | error e => rfl
  | ok e =>
    rw [ok_bind, ok_bind]
    cases stdoutText uninit searched e.out with
    | error e => rfl
    | ok t =>
      rw [ok_bind, ok_bind, ok_bind]
      unfold ending dropCopy
      by_cases hz : e.code = 0
      · rw [if_pos hz, if_pos hz]
        dsimp only
        rw [hfree]
        rfl
      · rw [if_neg hz, if_neg hz]

theorem not_mask_iff (addr : List Byte) : isSecondaryAddress addr = false ↔ ¬ AddressMask addr := by
  rw [← Bool.not_eq_true, isSecondary_iff]

/-- C116: `mbus-serial-scan-secondary` keeps one block of memory: the frame object it does not use -/
theorem C116_serial_scan_secondary_partial {σ : Type} (uninit : Buf 256) (os : Os) (world : Target → Int → Ops σ) (p : Proc) (s : σ) (args : List Arg) :
    (serialScanSecondaryArgs args = none → serialScanSecondaryMain uninit os world p s args = .ok ⟨0, [], s, some p⟩) ∧
    ∀ c, serialScanSecondaryArgs args = some c →
      (¬ ((os.dup = true ∧ os.frame = true) ∧ AddressMask (c.operand 0) ∧ Usable os (.serial c.target c.baud)) → serialScanSecondaryMain uninit os world p s args = .ok ⟨1, [], s, none⟩) ∧
      ((os.dup = true ∧ os.frame = true) → AddressMask (c.operand 0) → Usable os (.serial c.target c.baud) → AnswerOk p os.answer →
        serialScanSecondaryMain uninit os world p s args = report uninit [] ⟨p.next + 5, (p.next + 1) :: p.live, p.fds⟩ (scanSecondaryToolD c.debug (world (.serial c.target c.baud) 1) ⟨3, 1, 1⟩ s (c.operand 0))) := by
  refine ⟨fun h => by unfold serialScanSecondaryMain; rw [h]; rfl, fun c h => ⟨fun hu => ?_, fun hd hm hu ha => ?_⟩⟩
  · unfold serialScanSecondaryMain
    rw [h]
    dsimp only
    unfold Proc.alloc
    cases hd : os.dup with
    | false => rfl
    | true =>
      rw [if_pos rfl]
      dsimp only
      by_cases hm : AddressMask (c.operand 0)
      · rw [if_neg (fun k => (not_mask_iff _).mp k hm)]
        unfold spareFrame Proc.alloc
        cases hf : os.frame with
        | false => rfl
        | true =>
          rw [if_pos rfl]
          dsimp only
          rw [onSerial_refused _ _ _ _ _ _ _ _ _ (fun k => hu ⟨⟨hd, hf⟩, hm, k⟩)]
          rfl
      · rw [if_pos ((not_mask_iff _).mpr hm)]
  · unfold serialScanSecondaryMain
    rw [h]
    dsimp only
    unfold Proc.alloc
    rw [if_pos hd.1]
    dsimp only
    rw [if_neg (fun k => (not_mask_iff _).mp k hm)]
    unfold spareFrame Proc.alloc
    rw [if_pos hd.2]
    dsimp only
    rw [onSerial_usable _ _ _ _ _ _ ⟨p.next + 1 + 1, (p.next + 1) :: p.next :: p.live, p.fds⟩ _ _ hu ha]
    exact dropCopy_report uninit _ (p.next + 5) p.next ((p.next + 1) :: p.next :: p.live) ((p.next + 1) :: p.live) p.fds _
      (free_second _ _ _ _ _ (by omega))

/-- C116: `mbus-tcp-scan-secondary` -/
theorem C116_tcp_scan_secondary {σ : Type} (uninit : Buf 256) (os : Os) (world : Target → Int → Ops σ) (p : Proc) (s : σ) (args : List Arg) :
    (tcpScanSecondaryArgs args = none → tcpScanSecondaryMain uninit os world p s args = .ok ⟨0, [], s, some p⟩) ∧
    ∀ c, tcpScanSecondaryArgs args = some c →
      (¬ (os.dup = true ∧ AddressMask (c.operand 0) ∧ Usable os (.tcp c.target c.port)) → tcpScanSecondaryMain uninit os world p s args = .ok ⟨1, [], s, none⟩) ∧
      (os.dup = true → AddressMask (c.operand 0) → Usable os (.tcp c.target c.port) → AnswerOk p os.answer →
        tcpScanSecondaryMain uninit os world p s args = report uninit [] { p with next := p.next + 4 } (scanSecondaryTool (world (.tcp c.target c.port) 1) ⟨3, 1, 1⟩ s (c.operand 0))) := by
  refine ⟨fun h => by unfold tcpScanSecondaryMain; rw [h]; rfl, fun c h => ⟨fun hu => ?_, fun hd hm hu ha => ?_⟩⟩
  · unfold tcpScanSecondaryMain
    rw [h]
    dsimp only
    unfold Proc.alloc
    cases hd : os.dup with
    | false => rfl
    | true =>
      rw [if_pos rfl]
      dsimp only
      by_cases hm : AddressMask (c.operand 0)
      · rw [if_neg (fun k => (not_mask_iff _).mp k hm), onTcp_refused _ _ _ _ _ _ _ _ _ (fun k => hu ⟨hd, hm, k⟩)]
        rfl
      · rw [if_pos ((not_mask_iff _).mpr hm)]
  · unfold tcpScanSecondaryMain
    rw [h]
    dsimp only
    unfold Proc.alloc
    rw [if_pos hd]
    dsimp only
    rw [if_neg (fun k => (not_mask_iff _).mp k hm)]
    rw [onTcp_usable _ _ _ _ _ _ ⟨p.next + 1, p.next :: p.live, p.fds⟩ _ _ hu ha]
    exact dropCopy_report uninit _ (p.next + 4) p.next (p.next :: p.live) p.live p.fds _ (free_head _ _ _ rfl)

/-- C116: `mbus-serial-select-secondary` -/
theorem C116_serial_select {σ : Type} (junk : Frame) (wild : Bool) (uninit : Buf 256) (os : Os) (world : Target → Int → Ops σ) (p : Proc) (s : σ) (args : List Arg) :
    (serialSelectArgs args = none → serialSelectMain junk wild uninit os world p s args = .ok ⟨0, [], s, some p⟩) ∧
    ∀ c, serialSelectArgs args = some c →
      (¬ (os.dup = true ∧ AddressMask (c.operand 0) ∧ Usable os (.serial c.target c.baud)) → serialSelectMain junk wild uninit os world p s args = .ok ⟨1, [], s, none⟩) ∧
      (os.dup = true → AddressMask (c.operand 0) → Usable os (.serial c.target c.baud) → AnswerOk p os.answer →
        serialSelectMain junk wild uninit os world p s args = report uninit (args.getD 1 []) { p with next := p.next + 4 } (selectTool junk wild (world (.serial c.target c.baud) 1) s (c.operand 0))) := by
  refine ⟨fun h => by unfold serialSelectMain; rw [h]; rfl, fun c h => ⟨fun hu => ?_, fun hd hm hu ha => ?_⟩⟩
  · unfold serialSelectMain
    rw [h]
    dsimp only
    unfold Proc.alloc
    cases hd : os.dup with
    | false => rfl
    | true =>
      rw [if_pos rfl]
      dsimp only
      by_cases hm : AddressMask (c.operand 0)
      · rw [if_neg (fun k => (not_mask_iff _).mp k hm), onSerial_refused _ _ _ _ _ _ _ _ _ (fun k => hu ⟨hd, hm, k⟩)]
        rfl
      · rw [if_pos ((not_mask_iff _).mpr hm)]
  · unfold serialSelectMain
    rw [h]
    dsimp only
    unfold Proc.alloc
    rw [if_pos hd]
    dsimp only
    rw [if_neg (fun k => (not_mask_iff _).mp k hm)]
    rw [onSerial_usable _ _ _ _ _ _ ⟨p.next + 1, p.next :: p.live, p.fds⟩ _ _ hu ha]
    exact dropCopy_report uninit _ (p.next + 4) p.next (p.next :: p.live) p.live p.fds _ (free_head _ _ _ rfl)

/-- C116: `mbus-tcp-select-secondary` -/
theorem C116_tcp_select {σ : Type} (junk : Frame) (wild : Bool) (uninit : Buf 256) (os : Os) (world : Target → Int → Ops σ) (p : Proc) (s : σ) (args : List Arg) :
    (tcpSelectArgs args = none → tcpSelectMain junk wild uninit os world p s args = .ok ⟨0, [], s, some p⟩) ∧
    ∀ c, tcpSelectArgs args = some c →
      (¬ (os.dup = true ∧ AddressMask (c.operand 0) ∧ Usable os (.tcp c.target c.port)) → tcpSelectMain junk wild uninit os world p s args = .ok ⟨1, [], s, none⟩) ∧
      (os.dup = true → AddressMask (c.operand 0) → Usable os (.tcp c.target c.port) → AnswerOk p os.answer →
        tcpSelectMain junk wild uninit os world p s args = report uninit (args.getD 2 []) { p with next := p.next + 4 } (selectTool junk wild (world (.tcp c.target c.port) 1) s (c.operand 0))) := by
  refine ⟨fun h => by unfold tcpSelectMain; rw [h]; rfl, fun c h => ⟨fun hu => ?_, fun hd hm hu ha => ?_⟩⟩
  · unfold tcpSelectMain
    rw [h]
    dsimp only
    unfold Proc.alloc
    cases hd : os.dup with
    | false => rfl
    | true =>
      rw [if_pos rfl]
      dsimp only
      by_cases hm : AddressMask (c.operand 0)
      · rw [if_neg (fun k => (not_mask_iff _).mp k hm), onTcp_refused _ _ _ _ _ _ _ _ _ (fun k => hu ⟨hd, hm, k⟩)]
        rfl
      · rw [if_pos ((not_mask_iff _).mpr hm)]
  · unfold tcpSelectMain
    rw [h]
    dsimp only
    unfold Proc.alloc
    rw [if_pos hd]
    dsimp only
    rw [if_neg (fun k => (not_mask_iff _).mp k hm)]
    rw [onTcp_usable _ _ _ _ _ _ ⟨p.next + 1, p.next :: p.live, p.fds⟩ _ _ hu ha]
    exact dropCopy_report uninit _ (p.next + 4) p.next (p.next :: p.live) p.live p.fds _ (free_head _ _ _ rfl)

end Mbus
