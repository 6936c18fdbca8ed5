import Verif.Spec.Termios
/-
Property theorems C110: the settings of the serial line.  Vocabulary: Spec/Termios.lean.
-/
namespace Mbus
open Spec

/-- The flag word after the speed was set. -/
theorem speed_cases {b : Int} {s : BitVec 32} {v : Byte} (h : baudSpeed b = some (s, v)) :
    b ∈ rates ∧ speedOf s = some b.toNat ∧ s &&& ~~~CBAUD = 0 ∧ Covers b v.toNat ∧
      (((0x9B0#32 ||| s).toNat / 16) % 4 = 3 ∧ (0x9B0#32 ||| s).toNat.testBit 6 = false ∧ (0x9B0#32 ||| s).toNat.testBit 7 = true ∧ (0x9B0#32 ||| s).toNat.testBit 8 = true ∧
       (0x9B0#32 ||| s).toNat.testBit 9 = false ∧ (0x9B0#32 ||| s).toNat.testBit 10 = false ∧ (0x9B0#32 ||| s).toNat.testBit 11 = true ∧
       (0x9B0#32 ||| s).toNat.testBit 31 = false ∧ speedOf ((0x9B0#32 ||| s) &&& 0x100F) = some b.toNat) := by
  unfold baudSpeed at h
  repeat' split at h
  all_goals first
    | (cases h; done)
    | (rename_i hb
       injection h with h
       injection h with e1 e2
       subst hb; subst e1; subst e2
       refine ⟨by decide +kernel, by decide +kernel, by decide +kernel, by unfold Covers; decide +kernel, ?_⟩
       decide +kernel)

theorem baudSpeed_rates {b : Int} (h : b ∈ rates) : ∃ s v, baudSpeed b = some (s, v) := by
  simp only [rates, List.mem_cons, List.not_mem_nil, or_false] at h
  rcases h with rfl | rfl | rfl | rfl | rfl | rfl | rfl | rfl <;> exact ⟨_, _, rfl⟩

/-- Everything but the speed is right. -/
structure Template (t : Termios) : Prop where
  iflag : t.iflag = 0
  oflag : t.oflag = 0
  lflag : t.lflag = 0
  vmin : t.cc 6 = 0
  cflag : t.cflag &&& ~~~CBAUD = 0x9B0#32

theorem template_set {t : Termios} (h : Template t) {b : Int} {s : BitVec 32} {v : Byte} (hb : baudSpeed b = some (s, v)) :
    Template (((t.setCc VTIME v).setIspeed s).setOspeed s) ∧ Line8E1 (((t.setCc VTIME v).setIspeed s).setOspeed s) b := by
  obtain ⟨_, h2, h4, h5, f1, f2, f3, f4, f5, f6, f7, f8, f9⟩ := speed_cases hb
  have hm : (0x9B0#32 ||| s) &&& ~~~CBAUD = 0x9B0#32 := by
    have e : (0x9B0#32 ||| s) &&& ~~~CBAUD = (0x9B0#32 &&& ~~~CBAUD) ||| (s &&& ~~~CBAUD) := by
      ext i
      simp only [BitVec.getElem_and, BitVec.getElem_or]
      generalize (0x9B0#32)[i] = a
      generalize (s[i]) = c
      generalize (~~~CBAUD)[i] = d
      cases a <;> cases c <;> cases d <;> rfl
    rw [e, h4]
    decide
  have hc : (((t.setCc VTIME v).setIspeed s).setOspeed s).cflag = 0x9B0#32 ||| s := by
    show (((t.cflag &&& ~~~CBAUD) ||| s) &&& ~~~CBAUD) ||| s = _
    rw [h.cflag, hm]
  have hi : (((t.setCc VTIME v).setIspeed s).setOspeed s).iflag = 0 := by
    show t.iflag &&& ~~~IBAUD0 = 0
    rw [h.iflag]; decide
  have hv : (((t.setCc VTIME v).setIspeed s).setOspeed s).cc 6 = 0 := by
    show (if 6 = VTIME then v else t.cc 6) = 0
    rw [if_neg (by decide)]; exact h.vmin
  have hw : (((t.setCc VTIME v).setIspeed s).setOspeed s).cc 5 = v := by
    show (if 5 = VTIME then v else t.cc 5) = v
    rw [if_pos (by decide)]
  refine ⟨⟨hi, h.oflag, h.lflag, hv, by rw [hc, hm]⟩, ?_⟩
  exact ⟨by rw [hc]; exact f1, by rw [hc]; exact f2, by rw [hc]; exact f3, by rw [hc]; exact f4, by rw [hc]; exact f5, by rw [hc]; exact f6, by rw [hc]; exact f7,
    by rw [hc]; exact f8, hi, h.oflag, h.lflag, hv, by rw [hw]; exact h5, h2, h2, by rw [hc]; exact f9⟩

theorem template_connect : Template connectTermios :=
  ⟨by decide, by decide, by decide, by decide, by decide⟩

/-- The settings `mbus_serial_connect` asks for. -/
theorem line_connect : Line8E1 connectTermios 2400 :=
  ⟨by decide, by decide, by decide, by decide, by decide, by decide, by decide, by decide, by decide, by decide, by decide, by decide,
    by unfold Covers; decide +kernel, by decide, by decide, by decide⟩

/-- The state of a handle whose application knows `s` (see `expected`). -/
structure Sits (s : Bool × Option Int) (h : SerialHnd) (w : Ports) : Prop where
  up : s.1 = true → 0 ≤ h.fd ∧ w.fds h.fd = some h.device ∧ Template h.t
  rate : ∀ b, s.2 = some b → s.1 = true ∧ Line8E1 (w.line h.device) b

theorem sits_history {h h' : SerialHnd} {w w' : Ports} {es : List LineEv} (H : LineHistory h w es h' w') :
    ∀ s, Sits s h w → Sits (expected s es) h' w' ∧ h'.device = h.device := by
  induction H with
  | nil => exact fun s hs => ⟨hs, rfl⟩
  | @connect h w d ok r h' w' es h'' w'' hd hr _ ih =>
    intro s hs
    unfold lineConnect at hr
    by_cases h0 : d < 0
    · rw [if_pos h0] at hr
      injection hr with _ hr
      injection hr with e1 e2
      subst e1; subst e2
      obtain ⟨k1, k2⟩ := ih (false, none) ⟨(by simp), (by simp)⟩
      refine ⟨?_, k2⟩
      show Sits (expected (decide (0 ≤ d), if 0 ≤ d ∧ ok = true then some 2400 else none) es) _ _
      rw [decide_eq_false (by omega), if_neg (by omega)]
      exact k1
    · rw [if_neg h0] at hr
      injection hr with _ hr
      injection hr with e1 e2
      subst e1; subst e2
      show Sits (expected (decide (0 ≤ d), if 0 ≤ d ∧ ok = true then some 2400 else none) es) _ _ ∧ _
      have hd0 : 0 ≤ d := by omega
      rw [decide_eq_true hd0]
      simp only [if_true] at ih
      cases ok with
      | true =>
        rw [if_pos ⟨hd0, rfl⟩]
        refine ih (true, some 2400) ⟨fun _ => ⟨hd0, by simp, template_connect⟩, fun b hb => ?_⟩
        injection hb with hb
        subst hb
        exact ⟨rfl, by simpa using line_connect⟩
      | false =>
        rw [if_neg (by simp)]
        exact ih (true, none) ⟨fun _ => ⟨hd0, by simp, template_connect⟩, by simp⟩
  | @baud h w b ok r h' w' es h'' w'' hr _ ih =>
    intro s hs
    obtain ⟨up, rt⟩ := s
    show Sits (expected (up, if up = true ∧ ok = true ∧ b ∈ rates then some b else rt) es) _ _ ∧ _
    unfold lineBaud at hr
    cases hb : baudSpeed b with
    | none =>
      rw [hb] at hr
      injection hr with _ hr
      injection hr with e1 e2
      subst e1; subst e2
      have hn : ¬ (b ∈ rates) := fun hm => by
        obtain ⟨s, v, e⟩ := baudSpeed_rates hm
        rw [hb] at e; cases e
      rw [if_neg (fun h => hn h.2.2)]
      exact ih _ hs
    | some q =>
      obtain ⟨sp, v⟩ := q
      rw [hb] at hr
      injection hr with _ hr
      injection hr with e1 e2
      subst e1; subst e2
      have hin := (speed_cases hb).1
      cases up with
      | false =>
        rw [if_neg (by simp)]
        refine ih _ ⟨(by simp), fun b' hb' => ?_⟩
        exact absurd (hs.rate b' hb').1 (by simp)
      | true =>
        obtain ⟨u1, u2, u3⟩ := hs.up rfl
        obtain ⟨t1, t2⟩ := template_set u3 hb
        rw [u2] at ih
        cases ok with
        | true =>
          rw [if_pos ⟨rfl, rfl, hin⟩]
          refine ih (true, some b) ⟨fun _ => ⟨u1, u2, t1⟩, fun b' hb' => ?_⟩
          injection hb' with hb'
          subst hb'
          exact ⟨rfl, by simpa using t2⟩
        | false =>
          rw [if_neg (by simp)]
          exact ih (true, rt) ⟨fun _ => ⟨u1, u2, t1⟩, hs.rate⟩
  | @disconnect h w r h' w' es h'' w'' hr _ ih =>
    intro s hs
    show Sits (expected (false, none) es) _ _ ∧ _
    have hdev : h'.device = h.device := by
      unfold lineDisconnect at hr
      split at hr <;> (injection hr with _ hr; injection hr with e1 _; rw [← e1])
    rw [← hdev]
    exact ih (false, none) ⟨(by simp), (by simp)⟩
  | @otherFd h w d dev es h' w' h1 h2 _ ih =>
    intro s hs
    refine ih s ⟨fun hu => ?_, hs.rate⟩
    obtain ⟨u1, u2, u3⟩ := hs.up hu
    exact ⟨u1, by show (if h.fd = d then dev else w.fds h.fd) = _; rw [if_neg (fun e => h1 e.symm)]; exact u2, u3⟩
  | @otherLine h w k t es h' w' h1 _ ih =>
    intro s hs
    refine ih s ⟨hs.up, fun b hb => ?_⟩
    obtain ⟨u1, u2⟩ := hs.rate b hb
    exact ⟨u1, by show Line8E1 (if h.device = k then t else w.line h.device) b; rw [if_neg (fun e => h1 e.symm)]; exact u2⟩

/-- C110: after any history of connections, rate changes and disconnections of a new handle (whatever its memory contained), with any answers of the
operating system and other code around: while the handle is connected its descriptor is the device, and the line is set to 8 bits, even parity, raw, at the
rate the application may assume (2400 after connecting, the last accepted rate later), with a read timeout that covers the answer time of a meter. -/
theorem C110_line_partial (h h' : SerialHnd) (w w' : Ports) (es : List LineEv) (H : LineHistory h w es h' w') :
    ((expected (false, none) es).1 = true → w'.fds h'.fd = some h.device) ∧
    ∀ b, (expected (false, none) es).2 = some b → Line8E1 (w'.line h.device) b := by
  obtain ⟨k1, k2⟩ := sits_history H (false, none) ⟨(by simp), (by simp)⟩
  rw [← k2]
  exact ⟨fun hu => (k1.up hu).2.1, fun b hb => (k1.rate b hb).2⟩

/-- C110: the return codes. Connecting succeeds iff `open` does; a rate is accepted iff it is one of the eight rates, the descriptor is a terminal and `tcsetattr`
succeeds, and a rate that is not accepted leaves every line as it was. -/
theorem C110_codes (h : SerialHnd) (w : Ports) (d b : Int) (ok : Bool) :
    ((lineConnect h d ok w).1 = if 0 ≤ d then 0 else -1) ∧
    ((lineBaud h b ok w).1 = if b ∈ rates ∧ (w.fds h.fd).isSome ∧ ok = true then 0 else -1) ∧
    ((lineBaud h b ok w).1 ≠ 0 → (lineBaud h b ok w).2.2 = w) ∧
    ((lineDisconnect h w).1 = if 0 ≤ h.fd then 0 else -1) ∧ (lineDisconnect h w).2.2.line = w.line := by
  refine ⟨?_, ?_, ?_, ?_, ?_⟩
  · unfold lineConnect
    by_cases h0 : d < 0
    · rw [if_pos h0, if_neg (by omega)]
    · rw [if_neg h0, if_pos (by omega)]
  · unfold lineBaud
    cases hb : baudSpeed b with
    | none =>
      rw [if_neg]
      intro hc
      obtain ⟨s, v, e⟩ := baudSpeed_rates hc.1
      rw [hb] at e; cases e
    | some q =>
      obtain ⟨s, v⟩ := q
      have := (speed_cases hb).1
      unfold Ports.tcsetattr
      cases hf : w.fds h.fd with
      | none => simp
      | some k => cases ok <;> simp [this]
  · unfold lineBaud
    cases hb : baudSpeed b with
    | none => exact fun _ => rfl
    | some q =>
      obtain ⟨s, v⟩ := q
      unfold Ports.tcsetattr
      cases hf : w.fds h.fd with
      | none => exact fun _ => rfl
      | some k =>
        cases ok with
        | true => intro hc; exact absurd rfl hc
        | false => exact fun _ => rfl
  · unfold lineDisconnect
    by_cases h0 : h.fd < 0
    · rw [if_pos h0, if_neg (by omega)]
    · rw [if_neg h0, if_pos (by omega)]
  · unfold lineDisconnect
    split <;> rfl

theorem untouched_at {k : Nat} (l l' : Nat → Termios) (es : List LineEv) (hl : l k = l' k) : untouched l es k = untouched l' es k := by
  induction es generalizing l l' with
  | nil => exact hl
  | cons ev es ih =>
    cases ev with
    | otherLine j t =>
      apply ih
      show (if k = j then t else l k) = (if k = j then t else l' k)
      rw [hl]
    | connect | baud | disconnect | otherFd => exact ih _ _ hl

/-- C110: the handle never changes the settings of another device, provided its descriptor field did not name an open descriptor before the first connection
(it is not initialised, see `C110_uninitialised_violation`). -/
theorem C110_others_partial (h h' : SerialHnd) (w w' : Ports) (es : List LineEv) (hw : PortsOk w) (hf : h.fd < 0) (H : LineHistory h w es h' w') (k : Nat)
    (hk : k ≠ h.device) : w'.line k = untouched w.line es k := by
  have key : ∀ {h h' : SerialHnd} {w w' : Ports} {es : List LineEv}, LineHistory h w es h' w' → PortsOk w → (h.fd < 0 ∨ w.fds h.fd = some h.device) → k ≠ h.device →
      w'.line k = untouched w.line es k := by
    intro h h' w w' es H
    induction H with
    | nil => exact fun _ _ _ => rfl
    | @connect h w d ok r h' w' es h'' w'' hd hr _ ih =>
      intro hw hh hk
      show _ = untouched w.line es k
      unfold lineConnect at hr
      by_cases h0 : d < 0
      · rw [if_pos h0] at hr
        injection hr with _ hr
        injection hr with e1 e2
        subst e1; subst e2
        exact ih hw (.inl h0) hk
      · rw [if_neg h0] at hr
        injection hr with _ hr
        injection hr with e1 e2
        subst e1; subst e2
        simp only [if_true] at ih
        have hp : ∀ x : Int, x < 0 → (if x = d then some h.device else w.fds x) = none := by
          intro x hx
          rw [if_neg (by omega)]; exact hw x hx
        cases ok with
        | true =>
          have := ih hp (.inr (by simp)) hk
          rw [this]
          apply untouched_at
          simp [hk]
        | false => exact ih hp (.inr (by simp)) hk
    | @baud h w b ok r h' w' es h'' w'' hr _ ih =>
      intro hw hh hk
      show _ = untouched w.line es k
      unfold lineBaud at hr
      cases hb : baudSpeed b with
      | none =>
        rw [hb] at hr
        injection hr with _ hr
        injection hr with e1 e2
        subst e1; subst e2
        exact ih hw hh hk
      | some q =>
        obtain ⟨sp, v⟩ := q
        rw [hb] at hr
        injection hr with _ hr
        injection hr with e1 e2
        subst e1; subst e2
        rcases hh with hh | hh
        · rw [hw _ hh] at ih
          exact ih hw (.inl hh) hk
        · rw [hh] at ih
          cases ok with
          | true =>
            rw [ih hw (.inr hh) hk]
            apply untouched_at
            simp [hk]
          | false => exact ih hw (.inr hh) hk
    | @disconnect h w r h' w' es h'' w'' hr _ ih =>
      intro hw hh hk
      show _ = untouched w.line es k
      unfold lineDisconnect at hr
      by_cases h0 : h.fd < 0
      · rw [if_pos h0] at hr
        injection hr with _ hr
        injection hr with e1 e2
        subst e1; subst e2
        exact ih hw hh hk
      · rw [if_neg h0] at hr
        injection hr with _ hr
        injection hr with e1 e2
        subst e1; subst e2
        refine ih ?_ (.inl (show (-1 : Int) < 0 by decide)) hk
        intro x hx
        show (if x = h.fd then none else w.fds x) = none
        split
        · rfl
        · exact hw x hx
    | @otherFd h w d dev es h' w' h1 h2 _ ih =>
      intro hw hh hk
      show _ = untouched w.line es k
      refine ih ?_ ?_ hk
      · intro x hx
        show (if x = d then dev else w.fds x) = none
        rw [if_neg (by omega)]; exact hw x hx
      · rcases hh with hh | hh
        · exact .inl hh
        · exact .inr (by show (if h.fd = d then dev else w.fds h.fd) = _; rw [if_neg (fun e => h1 e.symm)]; exact hh)
    | @otherLine h w j t es h' w' h1 _ ih =>
      intro hw hh hk
      exact ih hw hh hk
  exact key H hw (.inl hf) hk

/-- C110 is false when `tcsetattr` fails: `mbus_serial_connect` reports success although the line keeps whatever settings it had. -/
theorem C110_connect_violation (h : SerialHnd) (w : Ports) (d : Int) (hd : 0 ≤ d) :
    ∃ h' w', lineConnect h d false w = (0, h', w') ∧ w'.fds h'.fd = some h.device ∧ w'.line = w.line := by
  unfold lineConnect
  rw [if_neg (by omega)]
  exact ⟨_, _, rfl, by simp, by simp⟩

/-- C110 is false before the first connection: `mbus_serial_set_baudrate` on a new handle sets the line of whatever terminal the uninitialised descriptor field names, to
whatever the uninitialised settings contain, and reports success. -/
theorem C110_uninitialised_violation (w : Ports) (d : Int) (other me : Nat) (hd : w.fds d = some other) (t : Termios) :
    ∃ h' w', lineBaud ⟨me, d, t⟩ 9600 true w = (0, h', w') ∧ (w'.line other).oflag = t.oflag ∧ (w'.line other).lflag = t.lflag ∧ speedOf (w'.line other).ospeed = some 9600 := by
  have e : (lineBaud ⟨me, d, t⟩ 9600 true w).1 = 0 := by
    rw [(C110_codes ⟨me, d, t⟩ w 0 9600 true).2.1, if_pos ⟨by decide, by rw [hd]; rfl, rfl⟩]
  refine ⟨(lineBaud ⟨me, d, t⟩ 9600 true w).2.1, (lineBaud ⟨me, d, t⟩ 9600 true w).2.2, by rw [← e], ?_⟩
  have e2 : (lineBaud ⟨me, d, t⟩ 9600 true w).2.2.line other = ((t.setCc VTIME 2).setIspeed B9600).setOspeed B9600 := by
    show (w.tcsetattr d (((t.setCc VTIME 2).setIspeed B9600).setOspeed B9600) true).2.line other = _
    unfold Ports.tcsetattr
    rw [hd]
    exact if_pos rfl
  rw [e2]
  exact ⟨rfl, rfl, by rfl⟩

/-! ### a concrete history -/

/-- A port in cooked mode. -/
def cooked : Termios := ⟨0x500, 5, 0xBF, 0x8A3B, fun _ => 1, 13, 13⟩

/-- The handle connects to a line in cooked mode, gets 9600, is refused 1234, fails at 300, other code changes another line: the line is 8E1 at 9600. -/
example : ∃ h' w', LineHistory ⟨7, 99, cooked⟩ ⟨fun _ => none, fun _ => cooked⟩
      [.connect 3 true, .baud 9600 true, .baud 1234 true, .otherFd 4 (some 8), .otherLine 8 cooked, .baud 300 false] h' w' ∧
    Line8E1 (w'.line 7) 9600 ∧ w'.fds h'.fd = some 7 := by
  have H : ∃ h' w', LineHistory ⟨7, 99, cooked⟩ ⟨fun _ => none, fun _ => cooked⟩
      [.connect 3 true, .baud 9600 true, .baud 1234 true, .otherFd 4 (some 8), .otherLine 8 cooked, .baud 300 false] h' w' :=
    ⟨_, _, .connect (fun _ => rfl) rfl (.baud rfl (.baud rfl (.otherFd (show (4 : Int) ≠ 3 by decide) (by decide) (.otherLine (show (8 : Nat) ≠ 7 by decide) (.baud rfl .nil)))))⟩
  obtain ⟨h', w', H⟩ := H
  obtain ⟨k1, k2⟩ := C110_line_partial _ _ _ _ _ H
  exact ⟨h', w', H, k2 9600 (by decide), k1 (by decide)⟩

example : ¬ Line8E1 cooked 9600 := fun h => by
  have := h.rawOut
  revert this
  decide

/-- The hypotheses of C110_others_partial. -/
example : ∃ h' w', LineHistory ⟨7, -1, cooked⟩ ⟨fun _ => none, fun _ => cooked⟩ [.connect 3 true, .otherLine 8 Termios.zero, .baud 600 true] h' w' ∧ w'.line 8 = Termios.zero := by
  have H : ∃ h' w', LineHistory ⟨7, -1, cooked⟩ ⟨fun _ => none, fun _ => cooked⟩ [.connect 3 true, .otherLine 8 Termios.zero, .baud 600 true] h' w' :=
    ⟨_, _, .connect (fun _ => rfl) rfl (.otherLine (show (8 : Nat) ≠ 7 by decide) (.baud rfl .nil))⟩
  obtain ⟨h', w', H⟩ := H
  exact ⟨h', w', H, C110_others_partial _ _ _ _ _ (fun _ _ => rfl) (by decide) H 8 (by decide)⟩

end Mbus
