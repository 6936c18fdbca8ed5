import Verif.Spec.Main
import Verif.Lemmas.Tools
/- C115: command lines. -/
namespace Mbus
open Spec

/-- C115: `mbus-serial-request-data [-d] [-b BAUDRATE] device mbus-address` -/
theorem C115_serial_request (args : List Arg) (c : Asked) : serialRequestArgs args = some c ↔
    ∃ d b device addr, args = flag d ++ opt (cs! "-b") b ++ [device, addr] ∧
      c = { debug := d, baud := rate b, target := device, operands := [addr] } := by
  constructor
  · intro h
    unfold serialRequestArgs at h
    split at h
    · cases h; exact ⟨false, none, _, _, rfl, rfl⟩
    · split at h
      · cases h; subst_vars; exact ⟨true, none, _, _, rfl, rfl⟩
      · cases h
    · split at h
      · cases h; subst_vars; exact ⟨false, some _, _, _, rfl, rfl⟩
      · cases h
    · split at h
      · rename_i hh; cases h; obtain ⟨rfl, rfl⟩ := hh; exact ⟨true, some _, _, _, rfl, rfl⟩
      · cases h
    · cases h
  · rintro ⟨d, b, device, addr, rfl, rfl⟩
    cases d <;> cases b <;> rfl

/-- C115: `mbus-tcp-request-data [-d] host port mbus-address` -/
theorem C115_tcp_request (args : List Arg) (c : Asked) : tcpRequestArgs args = some c ↔
    ∃ d host port addr, args = flag d ++ [host, port, addr] ∧ c = { debug := d, target := host, port := atol port, operands := [addr] } := by
  constructor
  · intro h
    unfold tcpRequestArgs at h
    split at h
    · cases h; exact ⟨false, _, _, _, rfl, rfl⟩
    · split at h
      · cases h; subst_vars; exact ⟨true, _, _, _, rfl, rfl⟩
      · cases h
    · cases h
  · rintro ⟨d, host, port, addr, rfl, rfl⟩
    cases d <;> rfl

/-- C115: `mbus-serial-scan [-d] [-b BAUDRATE] [-r RETRIES] device` -/
theorem C115_serial_scan (args : List Arg) (c : Asked) : serialScanArgs args = some c ↔
    ∃ d b r device, args = flag d ++ opt (cs! "-b") b ++ opt (cs! "-r") r ++ [device] ∧
      c = { debug := d, baud := rate b, retries := tries r, target := device } := by
  constructor
  · intro h
    unfold serialScanArgs at h
    split at h
    · cases h; exact ⟨false, none, none, _, rfl, rfl⟩
    · split at h
      · cases h; subst_vars; exact ⟨true, none, none, _, rfl, rfl⟩
      · cases h
    · split at h
      · cases h; subst_vars; exact ⟨false, some _, none, _, rfl, rfl⟩
      · split at h
        · cases h; subst_vars; exact ⟨false, none, some _, _, rfl, rfl⟩
        · cases h
    · split at h
      · rename_i hh; cases h; obtain ⟨rfl, rfl⟩ := hh; exact ⟨true, some _, none, _, rfl, rfl⟩
      · split at h
        · rename_i hh; cases h; obtain ⟨rfl, rfl⟩ := hh; exact ⟨true, none, some _, _, rfl, rfl⟩
        · cases h
    · split at h
      · rename_i hh; cases h; obtain ⟨rfl, rfl⟩ := hh; exact ⟨false, some _, some _, _, rfl, rfl⟩
      · cases h
    · split at h
      · rename_i hh; cases h; obtain ⟨rfl, rfl, rfl⟩ := hh; exact ⟨true, some _, some _, _, rfl, rfl⟩
      · cases h
    · cases h
  · rintro ⟨d, b, r, device, rfl, rfl⟩
    cases d <;> cases b <;> cases r <;> rfl

/-- C115: `mbus-tcp-scan [-d] [-r RETRIES] host port` -/
theorem C115_tcp_scan (args : List Arg) (c : Asked) : tcpScanArgs args = some c ↔
    ∃ d r host port, args = flag d ++ opt (cs! "-r") r ++ [host, port] ∧
      c = { debug := d, retries := tries r, target := host, port := atol port } := by
  constructor
  · intro h
    unfold tcpScanArgs at h
    split at h
    · cases h; exact ⟨false, none, _, _, rfl, rfl⟩
    · split at h
      · cases h; subst_vars; exact ⟨true, none, _, _, rfl, rfl⟩
      · cases h
    · split at h
      · cases h; subst_vars; exact ⟨false, some _, _, _, rfl, rfl⟩
      · cases h
    · split at h
      · rename_i hh; cases h; obtain ⟨rfl, rfl⟩ := hh; exact ⟨true, some _, _, _, rfl, rfl⟩
      · cases h
    · cases h
  · rintro ⟨d, r, host, port, rfl, rfl⟩
    cases d <;> cases r <;> rfl

/-- C115: `mbus-serial-select-secondary [-b BAUDRATE] device secondary-mbus-address` -/
theorem C115_serial_select (args : List Arg) (c : Asked) : serialSelectArgs args = some c ↔
    ∃ b device addr, args = opt (cs! "-b") b ++ [device, addr] ∧ c = { baud := rate b, target := device, operands := [addr] } := by
  constructor
  · intro h
    unfold serialSelectArgs at h
    split at h
    · cases h; exact ⟨none, _, _, rfl, rfl⟩
    · split at h
      · cases h; subst_vars; exact ⟨some _, _, _, rfl, rfl⟩
      · cases h
    · cases h
  · rintro ⟨b, device, addr, rfl, rfl⟩
    cases b <;> rfl

/-- C115: `mbus-tcp-select-secondary host port secondary-mbus-address` -/
theorem C115_tcp_select (args : List Arg) (c : Asked) : tcpSelectArgs args = some c ↔
    ∃ host port addr, args = [host, port, addr] ∧ c = { target := host, port := atol port, operands := [addr] } := by
  constructor
  · intro h
    unfold tcpSelectArgs at h
    split at h
    · cases h; exact ⟨_, _, _, rfl, rfl⟩
    · cases h
  · rintro ⟨host, port, addr, rfl, rfl⟩
    rfl

/-- C115: `mbus-serial-set-address [-d] [-b BAUDRATE] device mbus-address new-primary-address` -/
theorem C115_set_address (args : List Arg) (c : Asked) : setAddressArgs args = some c ↔
    ∃ d b device old new, args = flag d ++ opt (cs! "-b") b ++ [device, old, new] ∧
      c = { debug := d, baud := rate b, target := device, operands := [old, new] } := by
  constructor
  · intro h
    unfold setAddressArgs at h
    split at h
    · cases h; exact ⟨false, none, _, _, _, rfl, rfl⟩
    · split at h
      · cases h; subst_vars; exact ⟨true, none, _, _, _, rfl, rfl⟩
      · cases h
    · split at h
      · cases h; subst_vars; exact ⟨false, some _, _, _, _, rfl, rfl⟩
      · cases h
    · split at h
      · rename_i hh; cases h; obtain ⟨rfl, rfl⟩ := hh; exact ⟨true, some _, _, _, _, rfl, rfl⟩
      · cases h
    · cases h
  · rintro ⟨d, b, device, old, new, rfl, rfl⟩
    cases d <;> cases b <;> rfl

/-- C115: `mbus-serial-switch-baudrate [-b BAUDRATE] device address target-baudrate` -/
theorem C115_switch_baudrate (args : List Arg) (c : Asked) : switchBaudArgs args = some c ↔
    ∃ b device addr target, args = opt (cs! "-b") b ++ [device, addr, target] ∧
      c = { baud := rate b, target := device, operands := [addr, target] } := by
  constructor
  · intro h
    unfold switchBaudArgs at h
    split at h
    · cases h; exact ⟨none, _, _, _, rfl, rfl⟩
    · split at h
      · cases h; subst_vars; exact ⟨some _, _, _, _, rfl, rfl⟩
      · cases h
    · cases h
  · rintro ⟨b, device, addr, target, rfl, rfl⟩
    cases b <;> rfl

/-- C115: `mbus-tcp-raw-send [-d] host port mbus-address [file]` and `mbus-tcp-application-reset [-d] host port mbus-address [subcode]`.  A first argument
-d in front of three others is the option, not the name of a host. -/
theorem C115_tcp_optional (args : List Arg) (c : Asked) : tcpOptionalArgs args = some c ↔
    ∃ d host port addr last, args = flag d ++ [host, port, addr] ++ maybe last ∧ (d = false → last ≠ none → host ≠ cs! "-d") ∧
      c = { debug := d, target := host, port := atol port, operands := addr :: maybe last } := by
  constructor
  · intro h
    unfold tcpOptionalArgs at h
    split at h
    · cases h; exact ⟨false, _, _, _, none, rfl, fun _ h => absurd rfl h, rfl⟩
    · split at h
      · cases h; subst_vars; exact ⟨true, _, _, _, none, rfl, fun h => (nomatch h), rfl⟩
      · rename_i hh; cases h; exact ⟨false, _, _, _, some _, rfl, fun _ _ => hh, rfl⟩
    · split at h
      · cases h; subst_vars; exact ⟨true, _, _, _, some _, rfl, fun h => (nomatch h), rfl⟩
      · cases h
    · cases h
  · rintro ⟨d, host, port, addr, last, rfl, hh, rfl⟩
    cases d
    · cases last
      · rfl
      · show (if host = _ then _ else _) = _
        rw [if_neg (hh rfl (by simp))]
        rfl
    · cases last <;> rfl

/-- C115: `mbus-tcp-scan-secondary host port [address-mask]` -/
theorem C115_tcp_scan_secondary (args : List Arg) (c : Asked) : tcpScanSecondaryArgs args = some c ↔
    ∃ host port m, args = [host, port] ++ maybe m ∧ c = { target := host, port := atol port, operands := [mask m] } := by
  constructor
  · intro h
    unfold tcpScanSecondaryArgs at h
    split at h
    · cases h; exact ⟨_, _, some _, rfl, rfl⟩
    · cases h; exact ⟨_, _, none, rfl, rfl⟩
    · cases h
  · rintro ⟨host, port, m, rfl, rfl⟩
    cases m <;> rfl

/-- C115: `mbus-serial-scan-secondary [-d] [-b BAUDRATE] device [address-mask]`: every documented line is understood.
Missing: that no other line is accepted (`C115_scan_secondary_violation`). -/
theorem C115_serial_scan_secondary_partial (d : Bool) (b : Option Arg) (device : Arg) (m : Option Arg) (hd : device ≠ cs! "-d") :
    serialScanSecondaryArgs (flag d ++ opt (cs! "-b") b ++ [device] ++ maybe m) =
      some { debug := d, baud := rate b, target := device, operands := [mask m] } := by
  cases d <;> cases b <;> cases m <;> try rfl
  show (if device = _ then _ else _) = _
  rw [if_neg hd]
  rfl

/-- C115: an accepted line is a documented one, or has five arguments and -d first. -/
theorem C115_serial_scan_secondary_only (args : List Arg) (c : Asked) (h : serialScanSecondaryArgs args = some c) :
    (∃ d b device m, args = flag d ++ opt (cs! "-b") b ++ [device] ++ maybe m ∧
      c = { debug := d, baud := rate b, target := device, operands := [mask m] }) ∨
    ∃ x b device m, args = [cs! "-d", x, b, device, m] ∧ c = { debug := true, baud := atol b, target := device, operands := [m] } := by
  unfold serialScanSecondaryArgs at h
  split at h
  · cases h; exact .inl ⟨false, none, _, none, rfl, rfl⟩
  · split at h
    · cases h; subst_vars; exact .inl ⟨true, none, _, none, rfl, rfl⟩
    · cases h; exact .inl ⟨false, none, _, some _, rfl, rfl⟩
  · split at h
    · cases h; subst_vars; exact .inl ⟨true, none, _, some _, rfl, rfl⟩
    · split at h
      · cases h; subst_vars; exact .inl ⟨false, some _, _, none, rfl, rfl⟩
      · cases h
  · split at h
    · rename_i hh; cases h; obtain ⟨rfl, rfl⟩ := hh; exact .inl ⟨true, some _, _, none, rfl, rfl⟩
    · split at h
      · cases h; subst_vars; exact .inl ⟨false, some _, _, some _, rfl, rfl⟩
      · cases h
  · split at h
    · cases h; subst_vars; exact .inr ⟨_, _, _, _, rfl, rfl⟩
    · cases h
  · cases h

/-- C115 is violated: `mbus-serial-scan-secondary -d anything 300 device mask` is not a documented line but is accepted. -/
theorem C115_scan_secondary_violation (x device m : Arg) (hx : x ≠ cs! "-b") :
    serialScanSecondaryArgs [cs! "-d", x, cs! "300", device, m] = some { debug := true, baud := 300, target := device, operands := [m] } ∧
    ¬ ∃ d b device' m', [cs! "-d", x, cs! "300", device, m] = flag d ++ opt (cs! "-b") b ++ [device'] ++ maybe m' := by
  refine ⟨rfl, ?_⟩
  rintro ⟨d, b, device', m', h⟩
  cases d <;> cases b <;> cases m' <;> simp [flag, opt, maybe] at h
  exact hx h.1

/-! ### the multi-reply tools -/

theorem multiLoop_words (serial : Bool) (k : Nat) (hk : 0 < k) (os : List MultiOption) (ops : List Arg) (hops : ops.length = k)
    (hb : serial = false → ∀ v, MultiOption.baud v ∉ os) (c : Asked) :
    multiLoop serial k (os.flatMap MultiOption.words ++ ops) c.debug c.baud c.frames =
      some ((os.foldl MultiOption.apply c).debug, (os.foldl MultiOption.apply c).baud, (os.foldl MultiOption.apply c).frames, ops) := by
  induction os generalizing c with
  | nil =>
    cases ops with
    | nil => simp at hops; omega
    | cons a rest =>
      simp only [List.flatMap_nil, List.nil_append, List.foldl_nil]
      unfold multiLoop
      simp only [List.length_cons] at hops
      rw [if_neg (by omega), if_neg (by omega)]
  | cons x os ih =>
    have ih' := ih (fun hs v hv => hb hs v (List.mem_cons_of_mem _ hv))
    rw [List.foldl_cons]
    cases x with
    | debug =>
      simp only [List.flatMap_cons, MultiOption.words, List.cons_append, List.nil_append]
      unfold multiLoop
      rw [if_pos (by simp [hops]; omega), if_pos rfl]
      exact ih' (MultiOption.apply c .debug)
    | baud v =>
      have hs : serial = true := by
        cases serial
        · exact absurd (List.mem_cons_self) (hb rfl v)
        · rfl
      simp only [List.flatMap_cons, MultiOption.words, List.cons_append, List.nil_append]
      unfold multiLoop
      rw [if_pos (by simp [hops]; omega), if_neg (by decide), if_pos ⟨hs, rfl⟩]
      exact ih' (MultiOption.apply c (.baud v))
    | frames v =>
      simp only [List.flatMap_cons, MultiOption.words, List.cons_append, List.nil_append]
      unfold multiLoop
      rw [if_pos (by simp [hops]; omega), if_neg (by decide), if_neg (fun h => absurd h.2 (by decide)), if_pos rfl]
      exact ih' (MultiOption.apply c (.frames v))

theorem multiLoop_only (serial : Bool) (k : Nat) (hk : 0 < k) : ∀ (n : Nat) (args : List Arg), args.length ≤ n → ∀ (c : Asked) (d : Bool) (b f : Int)
    (ops : List Arg), multiLoop serial k args c.debug c.baud c.frames = some (d, b, f, ops) →
    ∃ os : List MultiOption, args = os.flatMap MultiOption.words ++ ops ∧ ops.length = k ∧ (serial = false → ∀ v, MultiOption.baud v ∉ os) ∧
      d = (os.foldl MultiOption.apply c).debug ∧ b = (os.foldl MultiOption.apply c).baud ∧ f = (os.foldl MultiOption.apply c).frames
  | n, [], _, c, d, b, f, ops, h => by
      unfold multiLoop at h
      rw [if_pos hk] at h
      cases h
  | 0, a :: rest, hn, _, _, _, _, _, _ => by simp at hn
  | n + 1, a :: rest, hn, c, d, b, f, ops, h => by
      unfold multiLoop at h
      split at h
      · split at h
        · rename_i ha
          obtain ⟨os, h1, h2, h3, h4, h5, h6⟩ := multiLoop_only serial k hk n rest (by simp at hn; omega) (MultiOption.apply c .debug) d b f ops h
          refine ⟨.debug :: os, by rw [ha, h1]; rfl, h2, fun hs v hv => ?_, h4, h5, h6⟩
          rcases List.mem_cons.mp hv with hv | hv
          · cases hv
          · exact h3 hs v hv
        · split at h
          · rename_i hb
            split at h
            · rename_i x rest _
              obtain ⟨os, h1, h2, h3, h4, h5, h6⟩ := multiLoop_only serial k hk n rest (by simp at hn; omega) (MultiOption.apply c (.baud x)) d b f ops h
              refine ⟨.baud x :: os, by rw [hb.2, h1]; rfl, h2, fun hs v hv => ?_, h4, h5, h6⟩
              exact absurd (hs.symm.trans hb.1) (by decide)
            · cases h
          · split at h
            · rename_i ha
              split at h
              · rename_i x rest _
                obtain ⟨os, h1, h2, h3, h4, h5, h6⟩ := multiLoop_only serial k hk n rest (by simp at hn; omega) (MultiOption.apply c (.frames x)) d b f ops h
                refine ⟨.frames x :: os, by rw [ha, h1]; rfl, h2, fun hs v hv => ?_, h4, h5, h6⟩
                rcases List.mem_cons.mp hv with hv | hv
                · cases hv
                · exact h3 hs v hv
              · cases h
            · cases h
      · split at h
        · cases h
        · rename_i h1 h2
          cases h
          exact ⟨[], rfl, by simp; omega, fun _ _ h => (nomatch h), rfl, rfl, rfl⟩

/-- C115: `mbus-serial-request-data-multi-reply [-d] [-b BAUDRATE] [-f FRAMES] device mbus-address`, the options in any order -/
theorem C115_serial_multi (args : List Arg) (c : Asked) : serialMultiArgs args = some c ↔
    ∃ (os : List MultiOption) (device addr : Arg), args = os.flatMap MultiOption.words ++ [device, addr] ∧
      c = os.foldl MultiOption.apply { target := device, operands := [addr] } := by
  have key : ∀ (os : List MultiOption) (c : Asked), (os.foldl MultiOption.apply c).target = c.target ∧ (os.foldl MultiOption.apply c).port = c.port ∧
      (os.foldl MultiOption.apply c).operands = c.operands ∧ (os.foldl MultiOption.apply c).retries = c.retries := by
    intro os
    induction os with
    | nil => intro c; exact ⟨rfl, rfl, rfl, rfl⟩
    | cons x os ih =>
      intro c
      rw [List.foldl_cons]
      have := ih (MultiOption.apply c x)
      cases x <;> exact this
  constructor
  · intro h
    unfold serialMultiArgs at h
    split at h
    · rename_i d b f device addr heq
      cases h
      obtain ⟨os, h1, _, _, h4, h5, h6⟩ := multiLoop_only true 2 (by decide) _ args (Nat.le_refl _) { target := device, operands := [addr] } d b f _ heq
      refine ⟨os, device, addr, h1, ?_⟩
      obtain ⟨k1, k2, k3, k4⟩ := key os { target := device, operands := [addr] }
      rw [h4, h5, h6]
      generalize List.foldl MultiOption.apply { target := device, operands := [addr] } os = x at *
      cases x
      simp_all
    · cases h
  · rintro ⟨os, device, addr, rfl, rfl⟩
    unfold serialMultiArgs
    have := multiLoop_words true 2 (by decide) os [device, addr] rfl (fun h => (nomatch h)) { target := device, operands := [addr] }
    rw [this]
    dsimp only
    obtain ⟨k1, k2, k3, k4⟩ := key os { target := device, operands := [addr] }
    generalize List.foldl MultiOption.apply { target := device, operands := [addr] } os = x at *
    cases x
    simp_all

/-- C115: `mbus-tcp-request-data-multi-reply [-d] [-f FRAMES] host port mbus-address`, the options in any order -/
theorem C115_tcp_multi (args : List Arg) (c : Asked) : tcpMultiArgs args = some c ↔
    ∃ (os : List MultiOption) (host port addr : Arg), (∀ v, MultiOption.baud v ∉ os) ∧ args = os.flatMap MultiOption.words ++ [host, port, addr] ∧
      c = os.foldl MultiOption.apply { target := host, port := atol port, operands := [addr] } := by
  have key : ∀ (os : List MultiOption), (∀ v, MultiOption.baud v ∉ os) → ∀ (c : Asked), (os.foldl MultiOption.apply c).target = c.target ∧ (os.foldl MultiOption.apply c).port = c.port ∧
      (os.foldl MultiOption.apply c).operands = c.operands ∧ (os.foldl MultiOption.apply c).retries = c.retries ∧ (os.foldl MultiOption.apply c).baud = c.baud := by
    intro os
    induction os with
    | nil => intro _ c; exact ⟨rfl, rfl, rfl, rfl, rfl⟩
    | cons x os ih =>
      intro hb c
      rw [List.foldl_cons]
      have := ih (fun v hv => hb v (List.mem_cons_of_mem _ hv)) (MultiOption.apply c x)
      cases x
      · exact this
      · exact absurd List.mem_cons_self (hb _)
      · exact this
  constructor
  · intro h
    unfold tcpMultiArgs at h
    split at h
    · rename_i d b f host port addr heq
      cases h
      obtain ⟨os, h1, _, h3, h4, _, h6⟩ := multiLoop_only false 3 (by decide) _ args (Nat.le_refl _) { target := host, port := atol port, operands := [addr] } d b f _ heq
      refine ⟨os, host, port, addr, h3 rfl, h1, ?_⟩
      obtain ⟨k1, k2, k3, k4, k5⟩ := key os (h3 rfl) { target := host, port := atol port, operands := [addr] }
      rw [h4, h6]
      generalize List.foldl MultiOption.apply { target := host, port := atol port, operands := [addr] } os = x at *
      cases x
      simp_all
    · cases h
  · rintro ⟨os, host, port, addr, hb, rfl, rfl⟩
    unfold tcpMultiArgs
    have := multiLoop_words false 3 (by decide) os [host, port, addr] rfl (fun _ => hb) { target := host, port := atol port, operands := [addr] }
    rw [this]
    dsimp only
    obtain ⟨k1, k2, k3, k4, k5⟩ := key os hb { target := host, port := atol port, operands := [addr] }
    generalize List.foldl MultiOption.apply { target := host, port := atol port, operands := [addr] } os = x at *
    cases x
    simp_all

/-! ### numbers -/

theorem atoi_atol (s : List Byte) : atoi s = (atol s + 2 ^ 31) % 2 ^ 32 - 2 ^ 31 := rfl

theorem dropWhile_all (p : Byte → Bool) : ∀ (ws t : List Byte), (∀ c ∈ ws, p c = true) → (ws ++ t).dropWhile p = t.dropWhile p
  | [], _, _ => rfl
  | w :: ws, t, h => by
      rw [List.cons_append, List.dropWhile_cons_of_pos (h w (by simp))]
      exact dropWhile_all p ws t fun c hc => h c (by simp [hc])

theorem takeWhile_stop (p : Byte → Bool) : ∀ (s rest : List Byte), (∀ c ∈ s, p c = true) → (∀ c, rest.head? = some c → p c = false) →
    (s ++ rest).takeWhile p = s
  | [], rest, _, h => by
      cases rest with
      | nil => rfl
      | cons c t => rw [List.nil_append, List.takeWhile_cons_of_neg (by simp [h c rfl])]
  | x :: s, rest, hs, h => by
      rw [List.cons_append, List.takeWhile_cons_of_pos (hs x (by simp)), takeWhile_stop p s rest (fun c hc => hs c (by simp [hc])) h]

/-- C115: a numeric argument means the decimal number at its start, behind white space and a sign; what follows the number is ignored. -/
theorem C115_number (ws s rest : List Byte) (n : Nat) (hw : ∀ c ∈ ws, c = 32 ∨ (9 ≤ c.toNat ∧ c.toNat ≤ 13)) (h : Numeral s n)
    (hr : ∀ c, rest.head? = some c → ¬ IsDec c) (hn : n < 2 ^ 63) :
    atol (ws ++ s ++ rest) = n ∧ atol (ws ++ [43] ++ s ++ rest) = n ∧ atol (ws ++ [45] ++ s ++ rest) = -n := by
  obtain ⟨h1, h2, h3⟩ := numeral_digits h
  have hsp : ∀ c ∈ ws, isSpace c = true := by
    intro c hc
    unfold isSpace
    rcases hw c hc with rfl | ⟨a, b⟩
    · rfl
    · simp [a, b]
  have hr' : ∀ c, rest.head? = some c → isDigit c = false := by
    intro c hc
    have := hr c hc
    unfold IsDec at this
    unfold isDigit
    simp only [Bool.and_eq_false_iff, decide_eq_false_iff_not]
    omega
  have ht : (s ++ rest).takeWhile isDigit = s := takeWhile_stop _ _ _ h2 hr'
  have hm : min ((2 : Int) ^ 63 - 1) (n : Int) = (n : Int) := by rw [Int.min_def]; split <;> omega
  refine ⟨?_, ?_, ?_⟩
  · cases s with
    | nil => exact absurd rfl h1
    | cons c t =>
      have key : ∀ c : Byte, isDigit c = true → isSpace c = false ∧ c ≠ 45 ∧ c ≠ 43 := by apply forall_byte; decide +kernel
      obtain ⟨k1, k2, k3⟩ := key c (h2 c (by simp))
      unfold atol
      rw [List.append_assoc, dropWhile_all _ _ _ hsp, List.cons_append, List.dropWhile_cons_of_neg (by simp [k1])]
      simp only [if_neg k2, if_neg k3]
      rw [← List.cons_append, ht, h3, if_neg (by decide), hm]
  · unfold atol
    rw [List.append_assoc, List.append_assoc, dropWhile_all _ _ _ hsp, List.cons_append, List.dropWhile_cons_of_neg (by decide), List.nil_append]
    simp only [if_neg (by decide : ¬ (43 : Byte) = 45), if_pos, ht, h3]
    rw [if_neg (by decide), hm]
  · unfold atol
    rw [List.append_assoc, List.append_assoc, dropWhile_all _ _ _ hsp, List.cons_append, List.dropWhile_cons_of_neg (by decide), List.nil_append]
    have hm : max (-(2 : Int) ^ 63) (-(n : Int)) = -n := by rw [Int.max_def, if_pos (by omega)]
    simp only [if_pos, ht, h3]
    exact hm

/-- C115: an argument that does not start with a number means 0. -/
theorem C115_no_number (s : List Byte) (h : ∀ c, s.head? = some c → ¬ IsDec c ∧ c ≠ 43 ∧ c ≠ 45 ∧ c ≠ 32 ∧ ¬ (9 ≤ c.toNat ∧ c.toNat ≤ 13)) : atol s = 0 := by
  cases s with
  | nil => rfl
  | cons c t =>
    obtain ⟨k1, k2, k3, k4, k5⟩ := h c rfl
    have hd : isDigit c = false := by
      unfold IsDec at k1
      unfold isDigit
      simp only [Bool.and_eq_false_iff, decide_eq_false_iff_not]
      omega
    have hs : isSpace c = false := by
      unfold isSpace
      have : c.toNat ≠ 32 := fun e => k4 (UInt8.toNat_inj.mp e)
      simp only [Bool.or_eq_false_iff, Bool.and_eq_false_iff, decide_eq_false_iff_not]
      omega
    unfold atol
    rw [List.dropWhile_cons_of_neg (by simp [hs])]
    simp only [if_neg k3, if_neg k2]
    rw [List.takeWhile_cons_of_neg (by simp [hd])]
    rfl

/-- the examples of bin/libmbus.pod, and lines that are refused -/
example : serialScanArgs [cs! "-d", cs! "-b", cs! "2400", cs! "/dev/ttyS0"] = some { debug := true, baud := 2400, target := cs! "/dev/ttyS0" } := by
  decide +kernel
example : switchBaudArgs [cs! "-b", cs! "2400", cs! "/dev/ttyUSB0", cs! "59", cs! "9600"] =
    some { baud := 2400, target := cs! "/dev/ttyUSB0", operands := [cs! "59", cs! "9600"] } := by decide +kernel
example : serialMultiArgs [cs! "-f", cs! "3", cs! "-b", cs! "2400", cs! "/dev/ttyS0", cs! "59"] =
    some { baud := 2400, frames := 3, target := cs! "/dev/ttyS0", operands := [cs! "59"] } := by decide +kernel
example : serialMultiArgs [cs! "-b", cs! "/dev/ttyS0", cs! "59"] = none ∧ serialScanArgs [cs! "-r", cs! "/dev/ttyS0"] = none := by decide +kernel
example : Numeral (cs! "2400") 2400 := .more (cs! "240") 240 48 (.more (cs! "24") 24 48 (.more (cs! "2") 2 52 (.digit 50 (by decide)) (by decide)) (by decide)) (by decide)

/-! Direct instances of the theorems above. -/

example := C115_serial_scan_secondary_partial true (some (cs! "2400")) (cs! "/dev/ttyS0") none (by decide)
example := C115_serial_scan_secondary_only [cs! "-b", cs! "2400", cs! "/dev/ttyS0"] { baud := 2400, target := cs! "/dev/ttyS0", operands := [mask none] } (by decide +kernel)
example := C115_number (cs! " \t") (cs! "2400") (cs! "x") 2400 (by decide)
  (.more (cs! "240") 240 48 (.more (cs! "24") 24 48 (.more (cs! "2") 2 52 (.digit 50 (by decide)) (by decide)) (by decide)) (by decide)) (by intro c h; cases h; decide) (by decide)

end Mbus
