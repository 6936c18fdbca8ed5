import Verif.Lemmas.Diag
import Verif.Spec.Diag
set_option linter.unusedSimpArgs false
/-
C122: what the session functions say on stderr.
-/
namespace Mbus
open Spec

section
variable {σ : Type} {d : Desk σ}

/-! ### the logged operations, split -/

theorem dl_send {s : σ × List Act} {f : Frame} {q : Int × Frame × (σ × List Act)} (h : d.logged.send s f = .ok q) :
    q.2.2.2 = s.2 ++ [.sent f q.1] := by
  obtain ⟨⟨r, f', s'⟩, _, h⟩ := bind_eq_ok.mp h
  cases h; rfl

theorem dl_recv {s : σ × List Act} {f : Frame} {q : Int × Frame × (σ × List Act)} (h : d.logged.recv s f = .ok q) :
    q.2.2.2 = s.2 ++ [.received q.1 q.2.1] := by
  obtain ⟨⟨r, f', s'⟩, _, h⟩ := bind_eq_ok.mp h
  cases h; rfl

theorem dl_purge {s : σ × List Act} {q : Int × (σ × List Act)} (h : d.logged.purge s = .ok q) : q.2.2 = s.2 ++ [.purged q.1] := by
  obtain ⟨⟨r, s'⟩, _, h⟩ := bind_eq_ok.mp h
  cases h; rfl

theorem dl_hear (s : σ × List Act) (m : Said) : (d.logged.hear s m).2 = s.2 := by cases m <;> rfl

theorem intText_eq (z : Int) : fmtInt z = intText z := by unfold fmtInt intText dec; split <;> rfl

theorem badAddress_eq (a : Int) (h : isPrimaryAddress a = false) : addressRefusal a = some (badAddress a) := by
  have : ¬ (0 ≤ a ∧ a ≤ 255) := by
    rintro ⟨h1, h2⟩
    unfold isPrimaryAddress at h
    simp at h
    omega
  unfold addressRefusal badAddress
  rw [if_neg this, intText_eq]

theorem goodAddress_eq (a : Int) (h : ¬ isPrimaryAddress a = false) : addressRefusal a = none := by
  have : 0 ≤ a ∧ a ≤ 255 := by
    unfold isPrimaryAddress at h
    simp at h
    omega
  unfold addressRefusal
  rw [if_pos this]

theorem finishD_tells {fn : List Byte} {R : Option (List Byte)} {code : Int} (hR : R = none) {s : σ × List Act} {f : Frame} {r : Int}
    {s' : σ × List Act} {ls : List Note} (h : finishD d.logged fn s f = .ok (r, s', ls)) :
    ∃ acts, s'.2 = s.2 ++ acts ∧ CommandTells fn R code false r acts ls := by
  unfold finishD at h
  obtain ⟨⟨c, g, t⟩, h1, h⟩ := bind_eq_ok.mp h
  have e := dl_send h1
  simp only at h e
  split at h
  · rename_i hc
    cases h
    exact ⟨_, e, by rw [hc]; exact .notSent f hR⟩
  · rename_i hc
    cases h
    exact ⟨_, e, .done f c hR hc rfl⟩

/-- C122 (`mbus_send_request_frame`): what is printed. -/
theorem C122_request (s : σ) (log : List Act) (a r : Int) (s' : σ × List Act) (ls : List Note)
    (h : sendRequestD d.logged (s, log) a = .ok (r, s', ls)) :
    ∃ acts, s'.2 = log ++ acts ∧ CommandTells (cs! "mbus_send_request_frame") (addressRefusal a) (-1) false r acts ls := by
  unfold sendRequestD at h
  split at h
  · rename_i ha
    cases h
    exact ⟨[], by simp, .refused _ (badAddress_eq a ha)⟩
  · rename_i ha
    exact finishD_tells (goodAddress_eq a ha) h

/-- C122 (`mbus_send_ping_frame`) -/
theorem C122_ping (s : σ) (log : List Act) (a : Int) (p : Bool) (r : Int) (s' : σ × List Act) (ls : List Note)
    (h : sendPingD d.logged (s, log) a p = .ok (r, s', ls)) :
    ∃ acts, s'.2 = log ++ acts ∧ CommandTells (cs! "mbus_send_ping_frame") (addressRefusal a) 1 p r acts ls := by
  unfold sendPingD at h
  split at h
  · rename_i ha
    cases h
    exact ⟨[], by simp, .refused _ (badAddress_eq a ha)⟩
  · rename_i ha
    have hR := goodAddress_eq a ha
    obtain ⟨⟨c, g, t⟩, h1, h⟩ := bind_eq_ok.mp h
    have e := dl_send h1
    simp only at h e
    split at h
    · rename_i hc
      cases h
      exact ⟨_, e, by rw [hc]; exact .notSent _ hR⟩
    · rename_i hc
      split at h
      · rename_i hp
        obtain ⟨⟨p, t'⟩, h2, h⟩ := bind_eq_ok.mp h
        have e2 := dl_purge h2
        cases h
        simp only at e2
        exact ⟨[_, _], by rw [e2, e, List.append_assoc]; rfl, .purged _ c p hR hc hp⟩
      · rename_i hp
        cases h
        exact ⟨_, e, .done _ c hR hc (by simpa using hp)⟩

/-- C122 (`mbus_send_switch_baudrate_frame`) -/
theorem C122_baud (s : σ) (log : List Act) (a b r : Int) (s' : σ × List Act) (ls : List Note)
    (h : sendBaudD d.logged (s, log) a b = .ok (r, s', ls)) :
    ∃ acts, s'.2 = log ++ acts ∧ CommandTells (cs! "mbus_send_switch_baudrate_frame") (baudRefusal a b) (-1) false r acts ls := by
  unfold sendBaudD at h
  split at h
  · rename_i ha
    cases h
    exact ⟨[], by simp, .refused _ (by unfold baudRefusal; rw [badAddress_eq a ha]; rfl)⟩
  · rename_i ha
    have hR := goodAddress_eq a ha
    split at h
    · rename_i hb
      cases h
      refine ⟨[], by simp, .refused _ ?_⟩
      unfold baudRefusal
      rw [hR, if_neg]
      · rw [intText_eq]; rfl
      · intro hm
        simp only [List.mem_cons, List.not_mem_nil, or_false] at hm
        unfold baudCode at hb
        rcases hm with rfl | rfl | rfl | rfl | rfl | rfl | rfl | rfl <;> simp at hb
    · rename_i ci hb
      refine finishD_tells ?_ h
      unfold baudRefusal
      rw [hR, if_pos]
      · rfl
      · unfold baudCode at hb
        grind

/-- C122 (`mbus_send_application_reset_frame`) -/
theorem C122_reset (s : σ) (log : List Act) (a b r : Int) (s' : σ × List Act) (ls : List Note)
    (h : sendAppResetD d.logged (s, log) a b = .ok (r, s', ls)) :
    ∃ acts, s'.2 = log ++ acts ∧ CommandTells (cs! "mbus_send_application_reset_frame") (resetRefusal a b) (-1) false r acts ls := by
  unfold sendAppResetD at h
  split at h
  · rename_i ha
    cases h
    exact ⟨[], by simp, .refused _ (by unfold resetRefusal; rw [badAddress_eq a ha]; rfl)⟩
  · rename_i ha
    have hR := goodAddress_eq a ha
    split at h
    · rename_i hb
      cases h
      refine ⟨[], by simp, .refused _ ?_⟩
      unfold resetRefusal
      rw [hR, if_neg (by omega), intText_eq]
      rfl
    · rename_i hb
      have hR' : resetRefusal a b = none := by unfold resetRefusal; rw [hR, if_pos (by omega)]; rfl
      simp only at h
      split at h
      · obtain ⟨f, _, h⟩ := bind_eq_ok.mp h
        exact finishD_tells hR' h
      · exact finishD_tells hR' h

/-- C122 (`mbus_send_user_data_frame`) -/
theorem C122_data (s : σ) (log : List Act) (a : Int) (x : List Byte) (n : Nat) (r : Int) (s' : σ × List Act) (ls : List Note)
    (h : sendUserDataD d.logged (s, log) a x n = .ok (r, s', ls)) :
    ∃ acts, s'.2 = log ++ acts ∧ CommandTells (cs! "mbus_send_user_data_frame") (dataRefusal a n) (-1) false r acts ls := by
  unfold sendUserDataD at h
  split at h
  · rename_i ha
    cases h
    exact ⟨[], by simp, .refused _ (by unfold dataRefusal; rw [badAddress_eq a ha]; rfl)⟩
  · rename_i ha
    have hR := goodAddress_eq a ha
    split at h
    · rename_i hb
      cases h
      refine ⟨[], by simp, .refused _ ?_⟩
      unfold dataRefusal
      rw [hR, if_neg (by omega)]
      rfl
    · rename_i hb
      have hR' : dataRefusal a n = none := by unfold dataRefusal; rw [hR, if_pos (by omega)]; rfl
      simp only at h
      obtain ⟨f, _, h⟩ := bind_eq_ok.mp h
      exact finishD_tells hR' h

/-- C122 (`mbus_set_primary_address`): a new address that no meter may have is refused by name; otherwise the lines are those of
`mbus_send_user_data_frame` to the old address. -/
theorem C122_set_address (s : σ) (log : List Act) (a b r : Int) (s' : σ × List Act) (ls : List Note)
    (h : setPrimaryAddressD d.logged (s, log) a b = .ok (r, s', ls)) :
    ((b < 0 ∨ 252 < b) ∧ r = -1 ∧ s' = (s, log) ∧ ls = [⟨cs! "mbus_set_primary_address", cs! "invalid address " ++ intText b⟩]) ∨
    (0 ≤ b ∧ b ≤ 252 ∧ ∃ acts, s'.2 = log ++ acts ∧ CommandTells (cs! "mbus_send_user_data_frame") (addressRefusal a) (-1) false r acts ls) := by
  unfold setPrimaryAddressD at h
  split at h
  · rename_i ha
    cases h
    refine .inl ⟨?_, rfl, rfl, by unfold badAddress; rw [intText_eq]⟩
    unfold isPrimaryAddress at ha
    simp at ha
    omega
  · rename_i ha
    have : 0 ≤ b ∧ b ≤ 255 := by
      unfold isPrimaryAddress at ha
      simp at ha
      omega
    split at h
    · cases h
      exact .inl ⟨by omega, rfl, rfl, by unfold badAddress; rw [intText_eq]⟩
    · refine .inr ⟨by omega, by omega, ?_⟩
      obtain ⟨acts, h1, h2⟩ := C122_data s log a _ 3 r s' ls h
      refine ⟨acts, h1, ?_⟩
      have : dataRefusal a 3 = addressRefusal a := by
        unfold dataRefusal
        cases addressRefusal a <;> rfl
      rw [this] at h2
      exact h2

/-! ### selection -/

/-- `mbus_error_str()` returns what was stored -/
def Recalls (d : Desk σ) : Prop := ∀ s t, d.quote (d.tell s t) = t

theorem selectPackE_cases {mask : List Byte} (hl : mask.length = 16) {r : Int} {f : Frame} {m : Said}
    (h : selectPackE (frameNew TYPE_LONG) mask = .ok (r, f, m)) :
    (r = -1 ∧ ¬ (∀ c ∈ mask, IsHex c) ∧ m = some (cs! "mbus_frame_select_secondary_pack: address is invalid.")) ∨
    (r ≠ -1 ∧ (∀ c ∈ mask, IsHex c) ∧ m = none) := by
  have hv := (C52_address_validation mask 0).1
  unfold selectPackE at h
  split at h
  · rename_i hb
    cases h
    refine .inl ⟨rfl, fun hh => ?_, rfl⟩
    rw [hv.mpr ⟨hl, hh⟩] at hb
    cases hb
  · rename_i hb
    have hb' : isSecondaryAddress mask = true := by simpa using hb
    obtain ⟨⟨r', f'⟩, h1, h⟩ := bind_eq_ok.mp h
    cases h
    refine .inr ⟨?_, (hv.mp hb').2, rfl⟩
    intro hr
    unfold selectPack at h1
    rw [if_neg hb] at h1
    dsimp only at h1
    obtain ⟨_, _, h1⟩ := bind_eq_ok.mp h1
    obtain ⟨_, _, h1⟩ := bind_eq_ok.mp h1
    obtain ⟨_, _, h1⟩ := bind_eq_ok.mp h1
    obtain ⟨_, _, h1⟩ := bind_eq_ok.mp h1
    obtain ⟨_, _, h1⟩ := bind_eq_ok.mp h1
    obtain ⟨_, _, h1⟩ := bind_eq_ok.mp h1
    obtain ⟨_, _, h1⟩ := bind_eq_ok.mp h1
    obtain ⟨_, _, h1⟩ := bind_eq_ok.mp h1
    obtain ⟨_, _, h1⟩ := bind_eq_ok.mp h1
    cases h1
    exact absurd hr (by decide)

/-- C122 (`mbus_select_secondary_address`): what is printed, for every course of the exchange. -/
theorem C122_select (hq : Recalls d) (s : σ) (log : List Act) (mask : List Byte) (r : Int) (s' : σ × List Act) (ls : List Note)
    (h : selectSecondaryD d.logged (s, log) mask = .ok (r, s', ls)) :
    ∃ acts, s'.2 = log ++ acts ∧ SelectTells mask (d.quote s'.1) r acts ls := by
  unfold selectSecondaryD at h
  split at h
  · rename_i hl
    cases h
    exact ⟨[], by simp, .length hl⟩
  rename_i hl
  have hl : mask.length = 16 := Classical.not_not.mp hl
  obtain ⟨⟨c, t, ks⟩, h1, h⟩ := bind_eq_ok.mp h
  unfold sendSelectD at h1
  obtain ⟨⟨pr, f, m⟩, h0, h1⟩ := bind_eq_ok.mp h1
  rcases selectPackE_cases hl h0 with ⟨rfl, hx, rfl⟩ | ⟨hr, hx, rfl⟩
  · simp only [if_true] at h1
    cases h1
    simp only [if_true] at h
    cases h
    refine ⟨[], by simp [Desk.hear, Desk.logged], ?_⟩
    exact .digits hl hx (hq _ _)
  · simp only [hr, if_false] at h1
    obtain ⟨⟨sr, f', u⟩, h2, h1⟩ := bind_eq_ok.mp h1
    have e1 := dl_send h2
    simp only [Desk.hear] at e1 h1
    split at h1
    · rename_i hc
      cases h1
      simp only [if_true] at h
      cases h
      exact ⟨_, e1, by rw [hc]; exact .notSent f hl hx⟩
    · rename_i hc
      cases h1
      simp only [show ¬ ((0 : Int) = -1) by decide, if_false] at h
      obtain ⟨⟨ret, g, v⟩, h3, h⟩ := bind_eq_ok.mp h
      have e2 := dl_recv h3
      simp only at e2 h
      rw [e1, List.append_assoc] at e2
      split at h
      · rename_i hr1
        cases h
        exact ⟨_, e2, by rw [hr1]; exact .nobody f g sr hl hc⟩
      rename_i hr1
      split at h
      · rename_i hr2
        obtain ⟨⟨p, w⟩, h4, h⟩ := bind_eq_ok.mp h
        have e3 := dl_purge h4
        simp only at e3
        rw [e2, List.append_assoc] at e3
        cases h
        exact ⟨_, e3, by rw [hr2]; exact .garbled f g sr p hl hc⟩
      rename_i hr2
      split at h
      · rename_i ht
        obtain ⟨⟨p, w⟩, h4, h⟩ := bind_eq_ok.mp h
        have e3 := dl_purge h4
        simp only at e3 h
        rw [e2, List.append_assoc] at e3
        split at h
        · rename_i hp
          cases h
          exact ⟨_, e3, .several f g sr ret p hl hc hr1 hr2 ht hp⟩
        · rename_i hp
          cases h
          have hp : p = 0 := Classical.not_not.mp hp
          exact ⟨_, e3, by rw [hp]; exact .one f g sr ret hl hc hr1 hr2 ht⟩
      · rename_i ht
        cases h
        exact ⟨_, e2, .unexpected f g sr ret hl hc hr1 hr2 ht⟩

/-! ### reading -/

theorem dl_reply {s : σ × List Act} {a : Int} {reply : Frame} {pre ks : List Note} {r r1 : Int} {g : Frame} {s' t : σ × List Act} {ls : List Note}
    (h1 : askD d.logged s a = .ok (r1, t, ks))
    (h : (if r1 = -1 then .ok (-1, reply, t, pre ++ ks)
      else do
        let (c, reply, s) ← d.logged.recv t reply
        if c ≠ 0 then .ok (-1, reply, s, pre ++ ks ++ [⟨cs! "mbus_read_slave", cs! "Failed to receive M-Bus response frame."⟩])
        else .ok (0, reply, s, pre ++ ks) : C (Int × Frame × (σ × List Act) × List Note)) = .ok (r, g, s', ls)) :
    ∃ acts ks, s'.2 = s.2 ++ acts ∧ ls = pre ++ ks ∧ AskTells a r acts ks := by
  unfold askD at h1
  obtain ⟨⟨r0, t0, k0⟩, h0, h1⟩ := bind_eq_ok.mp h1
  obtain ⟨acts, e0, hc⟩ := C122_request s.1 s.2 a r0 t0 k0 h0
  simp only at h1 h
  cases hc with
  | refused t ht =>
    simp only [if_true] at h1
    cases h1
    simp only [if_true] at h
    cases h
    exact ⟨_, _, e0, rfl, .refused _ ht⟩
  | notSent f ht =>
    simp only [if_true] at h1
    cases h1
    simp only [if_true] at h
    cases h
    exact ⟨_, _, e0, rfl, .notSent f ht⟩
  | purged f c p _ _ hp => cases hp
  | done f c ht hc _ =>
    simp only [show ¬ ((0 : Int) = -1) by decide, if_false] at h1
    cases h1
    simp only [show ¬ ((0 : Int) = -1) by decide, if_false] at h
    obtain ⟨⟨e, g', u⟩, h2, h⟩ := bind_eq_ok.mp h
    have e2 := dl_recv h2
    simp only at e2 h
    rw [e0, List.append_assoc] at e2
    split at h
    · rename_i he
      cases h
      exact ⟨_, [⟨readName, cs! "Failed to receive M-Bus response frame."⟩], e2, by simp [readName], .noReply f g c e ht hc he⟩
    · rename_i he
      have he : e = 0 := Classical.not_not.mp he
      cases h
      exact ⟨_, [], e2, by simp, by rw [he]; exact .reply f _ c ht hc⟩

/-- C122 (`mbus_read_slave`): what is printed, for every course of the exchange. -/
theorem C122_read (hq : Recalls d) (s : σ) (log : List Act) (addr : Address) (reply g : Frame) (r : Int) (s' : σ × List Act) (ls : List Note)
    (h : readSlaveD d.logged (s, log) addr reply = .ok (r, g, s', ls)) :
    ∃ acts, s'.2 = log ++ acts ∧ ReadTells (d.quote s'.1) addr r acts ls := by
  unfold readSlaveD at h
  cases addr with
  | primary a =>
    obtain ⟨⟨r1, t1, k1⟩, h1, h⟩ := bind_eq_ok.mp h
    obtain ⟨acts, ks, h1, rfl, h2⟩ := dl_reply (pre := []) h1 h
    exact ⟨acts, h1, .primary _ _ _ _ h2⟩
  | secondary t =>
    obtain ⟨⟨r1, t1, k1⟩, h1, h⟩ := bind_eq_ok.mp h
    unfold approachD at h1
    obtain ⟨⟨p, u, ks⟩, h0, h1⟩ := bind_eq_ok.mp h1
    obtain ⟨acts, e0, hs⟩ := C122_select hq s log t p u ks h0
    simp only at h1
    by_cases c1 : p = PROBE_COLLISION
    · rw [if_pos c1] at h1
      cases h1
      simp only [if_true] at h
      cases h
      have := ReadTells.unselected t p acts ks hs (by rw [c1]; decide)
      unfold verdict at this
      rw [if_pos (show p = 2 from c1)] at this
      exact ⟨acts, e0, this⟩
    rw [if_neg c1] at h1
    by_cases c2 : p = PROBE_NOTHING
    · rw [if_pos c2] at h1
      cases h1
      simp only [if_true] at h
      cases h
      have := ReadTells.unselected t p acts ks hs (by rw [c2]; decide)
      unfold verdict at this
      rw [if_neg (show ¬ p = 2 from c1), if_pos (show p = 0 from c2)] at this
      exact ⟨acts, e0, this⟩
    rw [if_neg c2] at h1
    by_cases c3 : p = PROBE_ERROR
    · rw [if_pos c3] at h1
      cases h1
      simp only [if_true] at h
      cases h
      have := ReadTells.unselected t p acts ks hs (by rw [c3]; decide)
      unfold verdict at this
      rw [if_neg (show ¬ p = 2 from c1), if_neg (show ¬ p = 0 from c2)] at this
      exact ⟨acts, e0, this⟩
    rw [if_neg c3] at h1
    have hp : p = 1 ∧ ks = [] := by
      cases hs
      all_goals first | exact ⟨rfl, rfl⟩ | exact absurd rfl c1 | exact absurd rfl c2 | exact absurd rfl c3
    obtain ⟨rfl, rfl⟩ := hp
    obtain ⟨⟨r2, v, ms⟩, h2, h1⟩ := bind_eq_ok.mp h1
    cases h1
    obtain ⟨acts', ks', e1, rfl, h3⟩ := dl_reply (pre := []) h2 h
    rw [e0, List.append_assoc] at e1
    exact ⟨_, e1, .selected t _ r acts acts' _ hs h3⟩

/-! ### requests -/

theorem stepsTell_append {a b : List Act} {x y : List Note} (h : StepsTell a x) (k : StepsTell b y) : StepsTell (a ++ b) (x ++ y) := by
  induction h with
  | nil => exact k
  | cons a l acts ls h1 _ ih => rw [List.append_assoc]; exact .cons a l _ _ h1 ih

theorem steps_one {a : Act} {l : List Note} (h : StepTells a l) : StepsTell [a] l := by
  have := StepsTell.cons a l [] [] h .nil
  simpa using this

theorem steps_two {a b : Act} {l m : List Note} (h : StepTells a l) (k : StepTells b m) : StepsTell [a, b] (l ++ m) :=
  stepsTell_append (steps_one h) (steps_one k)

/-- the result `q` of a request with lines `ls` before the call: the rest of the lines tells the rest of the log -/
def Told (log : List Act) (ls : List Note) (q : SrOut (σ × List Act) × List Note) : Prop :=
  ∃ acts ks, q.1.state.2 = log ++ acts ∧ q.2 = ls ++ ks ∧ StepsTell acts ks

theorem told_more {log : List Act} {ls : List Note} {q : SrOut (σ × List Act) × List Note} {acts : List Act} {ks : List Note}
    (h : StepsTell acts ks) (k : Told (log ++ acts) (ls ++ ks) q) : Told log ls q := by
  obtain ⟨a, n, h1, h2, h3⟩ := k
  exact ⟨acts ++ a, ks ++ n, by rw [h1, List.append_assoc], by rw [h2, List.append_assoc], stepsTell_append h h3⟩

theorem dataE_plain {f : Frame} {x y : FrameData} {r : Int} {m : Said} (h : frameDataParseE f x = .ok (r, y, m)) : frameDataParse f x = .ok (r, y) := by
  rw [← frameDataParseE_mute, h]; rfl

theorem told_here {s' : σ × List Act} {log : List Act} {ls : List Note} {acts : List Act} {ks : List Note} {code : Int} {ch : List Frame} {p : RecPtr}
    (e : s'.2 = log ++ acts) (h : StepsTell acts ks) : Told log ls (⟨code, ch, p, s'⟩, ls ++ ks) := ⟨acts, ks, e, rfl, h⟩

theorem log_two {s t u : σ × List Act} {f g g' : Frame} {f' : Frame} {r c : Int} (h1 : d.logged.send s f = .ok (r, f', t))
    (h2 : d.logged.recv t g = .ok (c, g', u)) : u.2 = s.2 ++ [.sent f r, .received c g'] := by
  have e1 := dl_send h1
  have e2 := dl_recv h2
  simp only at e1 e2
  rw [e2, e1, List.append_assoc]; rfl

theorem log_three {s t u v : σ × List Act} {f g g' : Frame} {f' : Frame} {r c p : Int} (h1 : d.logged.send s f = .ok (r, f', t))
    (h2 : d.logged.recv t g = .ok (c, g', u)) (h3 : d.logged.purge u = .ok (p, v)) : v.2 = s.2 ++ [.sent f r, .received c g', .purged p] := by
  have e3 := dl_purge h3
  simp only at e3
  rw [e3, log_two h1 h2, List.append_assoc]; rfl

theorem steps_recv {f g : Frame} {r c : Int} {l : List Note} (hr : r ≠ -1) (h : StepTells (.received c g) l) :
    StepsTell [.sent f r, .received c g] l := steps_two (.sent f r hr) h

theorem steps_purge {f g : Frame} {r c p : Int} {l : List Note} (hr : r ≠ -1) (h : StepTells (.received c g) l) :
    StepsTell [.sent f r, .received c g, .purged p] l := by
  have := stepsTell_append (steps_recv (f := f) hr h) (steps_one (.purged p))
  simpa using this

theorem sendrecvLoopD_told (maxRetry maxFrames : Int) (s : σ × List Act) (req : Frame) (done : List Frame) (cur : Frame)
    (x : FrameData) (p : RecPtr) (retry count : Int) (ls : List Note) (q : SrOut (σ × List Act) × List Note)
    (h : sendrecvLoopD d.logged maxRetry maxFrames s req done cur x p retry count ls = .ok q) : Told s.2 ls q := by
  fun_induction sendrecvLoopD d.logged maxRetry maxFrames s req done cur x p retry count ls
  case case1 => cases h; exact ⟨[], [], by simp, by simp, .nil⟩
  case case3 h1 =>
    cases h
    exact told_here (dl_send h1) (steps_one (.notSent _))
  case case7 h1 hc _ _ _ _ h3 _ _ _ h2 h4 =>
    cases h
    exact told_here (by rw [dl_hear, log_three h1 h2 h3]) (steps_purge hc (.bad _ ⟨_, _, dataE_plain h4⟩))
  case case9 h1 hc _ _ _ _ h3 _ _ _ _ h4 _ hp _ _ _ _ h2 ih =>
    have k := ih h
    rw [dl_hear, log_three h1 h2 h3] at k
    exact told_more (ks := []) (steps_purge hc (.good _ ⟨_, _, _, dataE_plain h4, hp⟩)) (by simpa using k)
  case case11 h1 hc _ _ _ _ h3 _ _ _ _ h4 _ hp _ _ _ _ h2 =>
    cases h
    exact ⟨_, [], by rw [dl_hear, log_three h1 h2 h3], by simp, steps_purge hc (.good _ ⟨_, _, _, dataE_plain h4, hp⟩)⟩
  case case12 h1 hc _ _ h2 _ ih =>
    have k := ih h
    rw [log_two h1 h2] at k
    exact told_more (steps_recv hc (.nothing _)) k
  case case14 h1 hc _ _ _ _ h3 h2 _ _ ih =>
    have k := ih h
    rw [log_three h1 h2 h3] at k
    exact told_more (steps_purge hc (.invalid _)) k
  case case15 h1 hc _ _ _ h2 n1 n2 n3 =>
    cases h
    exact told_here (log_two h1 h2) (steps_recv hc (.failed _ _ n1 n2 n3))
  all_goals cases h

theorem sendrecvLoopD_loud (maxRetry maxFrames : Int) (s : σ) (req : Frame) (done : List Frame) (cur : Frame) (hm : 0 ≤ maxRetry)
    (x : FrameData) (p : RecPtr) (retry count : Int) (ls : List Note) (q : SrOut σ × List Note) (hl : 0 < retry → ls ≠ [])
    (h : sendrecvLoopD d maxRetry maxFrames s req done cur x p retry count ls = .ok q) (hc : q.1.code ≠ 0) : q.2 ≠ [] := by
  fun_induction sendrecvLoopD d maxRetry maxFrames s req done cur x p retry count ls
  case case1 => cases h; exact hl (by omega)
  case case3 => cases h; simp
  case case7 => cases h; simp
  case case9 ih => exact ih (by omega) h
  case case11 => cases h; exact absurd rfl hc
  case case12 ih => exact ih (by simp) h
  case case14 ih => exact ih (by simp) h
  case case15 => cases h; simp
  all_goals cases h

/-- C122 (`mbus_sendrecv_request`): every failed transmission, missing, invalid or refused reply is told in one line of its own, in order, and
nothing else is printed; a call that fails is not silent. -/
theorem C122_sendrecv (st : Settings) (hst : 0 ≤ st.maxDataRetry) (s : σ) (log : List Act) (a : Int) (reply : Frame) (mf : Int)
    (q : SrOut (σ × List Act)) (ls : List Note) (h : sendrecvRequestD d.logged st (s, log) a reply mf = .ok (q, ls)) :
    (¬ (0 ≤ a ∧ a ≤ 255) ∧ q.code = 1 ∧ q.state = (s, log) ∧ ls = [requestLine (cs! "invalid address " ++ intText a)]) ∨
    (0 ≤ a ∧ a ≤ 255 ∧ ∃ acts, q.state.2 = log ++ acts ∧ StepsTell acts ls ∧ (q.code ≠ 0 → ls ≠ [])) := by
  unfold sendrecvRequestD at h
  split at h
  · rename_i ha
    cases h
    refine .inl ⟨?_, rfl, rfl, by unfold badAddress; rw [intText_eq]; rfl⟩
    unfold isPrimaryAddress at ha
    simp at ha
    omega
  · rename_i ha
    have hb : 0 ≤ a ∧ a ≤ 255 := by
      unfold isPrimaryAddress at ha
      simp at ha
      omega
    obtain ⟨acts, ks, h1, h2, h3⟩ := sendrecvLoopD_told _ _ _ _ _ _ _ _ _ _ _ _ h
    have h4 := sendrecvLoopD_loud (d := d.logged) _ _ _ _ _ _ hst _ _ _ _ _ _ (by omega) h
    simp only [List.nil_append] at h2
    subst h2
    exact .inr ⟨hb.1, hb.2, acts, h1, h3, h4⟩

/-! ### probing and scanning -/

theorem probeSelectedD_tells (hq : Recalls d) (s : σ × List Act) (mask : List Byte) (r : Int) (ad : Option (List Byte)) (s' : σ × List Act) (ls : List Note)
    (h : probeSelectedD d.logged s mask = .ok (r, ad, s', ls)) :
    ∃ acts, s'.2 = s.2 ++ acts ∧ PickTells mask (d.quote s'.1) r acts ls := by
  unfold probeSelectedD at h
  obtain ⟨⟨r0, t0, k0⟩, h0, h⟩ := bind_eq_ok.mp h
  obtain ⟨acts, e0, hc⟩ := C122_request s.1 s.2 0xFD r0 t0 k0 h0
  cases hc with
  | refused t ht => simp [addressRefusal] at ht
  | purged f c p _ _ hp => cases hp
  | notSent f ht =>
    simp only [if_true] at h
    cases h
    exact ⟨_, e0, .notSent f⟩
  | done f c ht hc _ =>
    simp only [show ¬ ((0 : Int) = -1) by decide, if_false] at h
    obtain ⟨⟨e, g, u⟩, h2, h⟩ := bind_eq_ok.mp h
    have e2 := dl_recv h2
    simp only at e2 h
    rw [e0, List.append_assoc] at e2
    split at h
    · rename_i he
      cases h
      exact ⟨_, e2, by rw [he]; exact .nobody f g c hc⟩
    rename_i n1
    split at h
    · rename_i he
      obtain ⟨⟨p, w⟩, h4, h⟩ := bind_eq_ok.mp h
      have e3 := dl_purge h4
      simp only at e3
      rw [e2, List.append_assoc] at e3
      cases h
      exact ⟨_, e3, by rw [he]; exact .garbled f g c p hc⟩
    rename_i n2
    obtain ⟨⟨p, w⟩, h4, h⟩ := bind_eq_ok.mp h
    have e3 := dl_purge h4
    simp only at e3 h
    rw [e2, List.append_assoc] at e3
    split at h
    · rename_i hp
      cases h
      exact ⟨_, e3, .several f g c e p hc n1 n2 hp⟩
    rename_i hp
    have hp : p = 0 := Classical.not_not.mp hp
    rw [hp] at e3
    split at h
    · rename_i ht
      obtain ⟨⟨o, m⟩, h5, h⟩ := bind_eq_ok.mp h
      simp only at h
      cases o with
      | none =>
        cases h
        have hg : getSecondaryAddress g = .ok none := by rw [← getSecondaryE_mute, h5]; rfl
        refine ⟨_, (dl_hear w m).trans e3, .unnamed f g c e hc n1 n2 ht fun hs => ?_⟩
        obtain ⟨m', k1, k2, k3⟩ := C119_secondary_address g hs none hg
        rw [h5] at k1
        cases k1
        obtain ⟨t, rfl⟩ := Option.ne_none_iff_exists'.mp (k2.mp rfl)
        have : d.quote (d.logged.hear w (some t)).1 = t := hq _ _
        rw [this]
        exact k3 t rfl
      | some addr =>
        cases h
        refine ⟨_, ?_, .found f g c e (addr.take 16) hc n1 n2 ht⟩
        show (d.logged.hear w m).2 ++ _ = _
        rw [dl_hear, e3, List.append_assoc]
        rfl
    · rename_i ht
      cases h
      exact ⟨_, e3, .notLong f g c e hc n1 n2 ht⟩

theorem select_result {mask q : List Byte} {r : Int} {acts : List Act} {ls : List Note} (h : SelectTells mask q r acts ls) :
    (r = -1 ∨ r = 0 ∨ r = 1 ∨ r = 2) ∧ (r = 1 → ls = []) := by
  cases h <;> simp

theorem probeLoopD_tells (hq : Recalls d) (mask : List Byte) (n : Nat) : ∀ (ret : Int) (s : σ × List Act) (r : Int) (ad : Option (List Byte))
    (s' : σ × List Act) (ls : List Note), probeLoopD d.logged mask ret (n + 1) s = .ok (r, ad, s', ls) →
    ∃ acts, s'.2 = s.2 ++ acts ∧ ProbeTells mask (d.quote s'.1) r acts ls := by
  induction n with
  | zero =>
    intro ret s r ad s' ls h
    unfold probeLoopD at h
    obtain ⟨⟨r0, t0, k0⟩, h0, h⟩ := bind_eq_ok.mp h
    obtain ⟨acts, e0, hs⟩ := C122_select hq s.1 s.2 mask r0 t0 k0 h0
    simp only at h
    split at h
    · rename_i hr
      obtain ⟨⟨r1, a1, t1, k1⟩, h1, h⟩ := bind_eq_ok.mp h
      obtain ⟨acts', e1, hp⟩ := probeSelectedD_tells hq t0 mask r1 a1 t1 k1 h1
      cases h
      rw [e0, List.append_assoc] at e1
      have hk := (select_result hs).2 hr
      subst hk
      rw [hr] at hs
      exact ⟨_, e1, .picked _ _ acts acts' _ hs hp⟩
    · rename_i hr
      split at h
      · rename_i hr'
        cases h
        exact ⟨_, e0, .stop _ acts _ hs hr'⟩
      · rename_i hr'
        unfold probeLoopD at h
        cases h
        have : r0 = 0 := by
          rcases (select_result hs).1 with rfl | rfl | rfl | rfl
          · exact absurd (Or.inl rfl) hr'
          · rfl
          · exact absurd rfl hr
          · exact absurd (Or.inr rfl) hr'
        subst this
        exact ⟨_, e0, by rw [List.append_nil]; exact .last _ acts _ hs⟩
  | succ n ih =>
    intro ret s r ad s' ls h
    unfold probeLoopD at h
    obtain ⟨⟨r0, t0, k0⟩, h0, h⟩ := bind_eq_ok.mp h
    obtain ⟨acts, e0, hs⟩ := C122_select hq s.1 s.2 mask r0 t0 k0 h0
    simp only at h
    split at h
    · rename_i hr
      obtain ⟨⟨r1, a1, t1, k1⟩, h1, h⟩ := bind_eq_ok.mp h
      obtain ⟨acts', e1, hp⟩ := probeSelectedD_tells hq t0 mask r1 a1 t1 k1 h1
      cases h
      rw [e0, List.append_assoc] at e1
      have hk := (select_result hs).2 hr
      subst hk
      rw [hr] at hs
      exact ⟨_, e1, .picked _ _ acts acts' _ hs hp⟩
    · rename_i hr
      split at h
      · rename_i hr'
        cases h
        exact ⟨_, e0, .stop _ acts _ hs hr'⟩
      · rename_i hr'
        obtain ⟨⟨r1, a1, t1, k1⟩, h1, h⟩ := bind_eq_ok.mp h
        obtain ⟨acts', e1, hp⟩ := ih _ _ _ _ _ _ h1
        cases h
        rw [e0, List.append_assoc] at e1
        have : r0 = 0 := by
          rcases (select_result hs).1 with rfl | rfl | rfl | rfl
          · exact absurd (Or.inl rfl) hr'
          · rfl
          · exact absurd rfl hr
          · exact absurd (Or.inr rfl) hr'
        subst this
        exact ⟨_, e1, .again _ _ acts acts' _ _ hs hp⟩

/-- C122 (`mbus_probe_secondary_address`): what is printed, for every course of the exchange. -/
theorem C122_probe (hq : Recalls d) (st : Settings) (hst : 0 ≤ st.maxSearchRetry) (s : σ) (log : List Act) (mask : List Byte) (r : Int)
    (ad : Option (List Byte)) (s' : σ × List Act) (ls : List Note) (h : probeSecondaryD d.logged st (s, log) mask = .ok (r, ad, s', ls)) :
    (mask.length ≠ 16 ∧ r = -1 ∧ s' = (s, log) ∧ ls = [⟨probeName, cs! "Invalid address masks."⟩]) ∨
    (mask.length = 16 ∧ ∃ acts, s'.2 = log ++ acts ∧ ProbeTells mask (d.quote s'.1) r acts ls) := by
  unfold probeSecondaryD at h
  split at h
  · rename_i hl
    cases h
    exact .inl ⟨hl, rfl, rfl, rfl⟩
  · rename_i hl
    obtain ⟨n, hn⟩ : ∃ n, (st.maxSearchRetry + 1).toNat = n + 1 := ⟨st.maxSearchRetry.toNat, by omega⟩
    rw [hn] at h
    exact .inr ⟨Classical.not_not.mp hl, probeLoopD_tells hq mask n 0 (s, log) r ad s' ls h⟩

theorem scanTells_append {a b : List Act} {x y : List Note} (h : ScanTells a x) (k : ScanTells b y) : ScanTells (a ++ b) (x ++ y) := by
  induction h with
  | nil => exact k
  | probe m q r acts rest ls more hp _ ih =>
    have := ScanTells.probe m q r acts _ ls _ hp ih
    simpa using this

theorem probe_result {mask q : List Byte} {r : Int} {acts : List Act} {ls : List Note} (h : ProbeTells mask q r acts ls) :
    r = -1 ∨ r = 0 ∨ r = 1 ∨ r = 2 := by
  induction h with
  | last => simp
  | again _ _ _ _ _ _ _ _ ih => exact ih
  | stop r acts ls _ hr => rcases hr with rfl | rfl <;> simp
  | picked _ _ _ _ _ _ hp => cases hp <;> simp

theorem scanLoopD_tells (hq : Recalls d) (st : Settings) (hst : 0 ≤ st.maxSearchRetry) (pos : Nat)
    (sub : σ × List Act → List Byte → C (Int × (σ × List Act) × List Note))
    (hsub : ∀ s m r s' ls, m.length = 16 → sub s m = .ok (r, s', ls) → ∃ acts, s'.2 = s.2 ++ acts ∧ ScanTells acts ls) (ds : List Byte) :
    ∀ (mask : List Byte) (s : σ × List Act) (r : Int) (s' : σ × List Act) (ls : List Note), mask.length = 16 →
    scanLoopD d.logged st pos sub mask ds s = .ok (r, s', ls) →
    ∃ acts, s'.2 = s.2 ++ acts ∧ ScanTells acts ls ∧ (r ≠ 0 → ls ≠ []) := by
  induction ds with
  | nil =>
    intro mask s r s' ls _ h
    cases h
    exact ⟨[], by simp, .nil, by simp⟩
  | cons x ds ih =>
    intro mask s r s' ls hm h
    unfold scanLoopD at h
    dsimp only at h
    have hm' : (mask.set pos x).length = 16 := by simp [hm]
    obtain ⟨⟨r0, a0, t0, k0⟩, h0, h⟩ := bind_eq_ok.mp h
    rcases C122_probe hq st hst _ _ (mask.set pos x) r0 a0 t0 k0 h0 with ⟨hl, _⟩ | ⟨_, acts, e0, hp⟩
    · exact absurd hm' hl
    have e0' : t0.2 = s.2 ++ (.progress (mask.set pos x) :: acts) := by
      rw [e0]
      show (s.2 ++ [Act.progress (mask.set pos x)]) ++ acts = _
      simp
    have more : ∀ (t1 : σ × List Act) (k1 : List Note) (acts1 : List Act), t1.2 = t0.2 ++ acts1 → ScanTells acts1 k1 → r0 ≠ -1 →
        ∀ (c : Int) (t2 : σ × List Act) (k2 : List Note), scanLoopD d.logged st pos sub (mask.set pos x) ds t1 = .ok (c, t2, k2) →
        ∃ acts, t2.2 = s.2 ++ acts ∧ ScanTells acts (k0 ++ k1 ++ k2) ∧ (c ≠ 0 → k0 ++ k1 ++ k2 ≠ []) := by
      intro t1 k1 acts1 e1 h1 hr c t2 k2 h2
      obtain ⟨acts2, e2, h3, h4⟩ := ih (mask.set pos x) t1 c t2 k2 hm' h2
      rw [e1, e0', List.append_assoc, List.append_assoc] at e2
      refine ⟨_, e2, ?_, fun hc e => h4 hc ?_⟩
      · have := ScanTells.probe (mask.set pos x) _ r0 acts _ k0 _ hp (scanTells_append h1 h3)
        rw [if_neg hr] at this
        simpa using this
      · simp only [List.append_eq_nil_iff] at e
        exact e.2
    simp only at h
    split at h
    · rename_i hr
      obtain ⟨⟨c, t2, k2⟩, h2, h⟩ := bind_eq_ok.mp h
      cases h
      have := more t0 [] [] (by simp) .nil (by rw [hr]; decide) _ _ _ h2
      simpa using this
    split at h
    · rename_i hr
      obtain ⟨⟨c1, t1, k1⟩, h1, h⟩ := bind_eq_ok.mp h
      obtain ⟨⟨c, t2, k2⟩, h2, h⟩ := bind_eq_ok.mp h
      cases h
      obtain ⟨acts1, e1, h3⟩ := hsub t0 _ c1 t1 k1 hm' h1
      exact more t1 k1 acts1 e1 h3 (by rw [hr]; decide) _ _ _ h2
    split at h
    · rename_i hr
      obtain ⟨⟨c, t2, k2⟩, h2, h⟩ := bind_eq_ok.mp h
      cases h
      have := more t0 [] [] (by simp) .nil (by rw [hr]; decide) _ _ _ h2
      simpa using this
    · rename_i n1 n2 n3
      cases h
      have hr : r0 = -1 := by
        rcases probe_result hp with h | h | h | h
        · exact h
        · exact absurd h n3
        · exact absurd h n1
        · exact absurd h n2
      refine ⟨_, e0', ?_, by simp⟩
      have := ScanTells.probe (mask.set pos x) _ r0 acts [] k0 [] hp .nil
      rw [if_pos hr] at this
      simpa using this

theorem scanAtD_tells (hq : Recalls d) (st : Settings) (hst : 0 ≤ st.maxSearchRetry) (n : Nat) : ∀ (s : σ × List Act) (mask : List Byte) (r : Int)
    (s' : σ × List Act) (ls : List Note), mask.length = 16 → scanAtD d.logged st n s mask = .ok (r, s', ls) →
    ∃ acts, s'.2 = s.2 ++ acts ∧ ScanTells acts ls ∧ (r ≠ 0 → ls ≠ []) := by
  induction n with
  | zero =>
    intro s mask r s' ls _ h
    cases h
    exact ⟨[], by simp, .nil, by simp⟩
  | succ n ih =>
    intro s mask r s' ls hm h
    unfold scanAtD at h
    dsimp only at h
    obtain ⟨c, _, h⟩ := bind_eq_ok.mp h
    have hsub : ∀ s m r s' ls, m.length = 16 → scanAtD d.logged st n s m = .ok (r, s', ls) → ∃ acts, s'.2 = s.2 ++ acts ∧ ScanTells acts ls := by
      intro s m r s' ls hm h
      obtain ⟨acts, h1, h2, _⟩ := ih s m r s' ls hm h
      exact ⟨acts, h1, h2⟩
    split at h
    · exact scanLoopD_tells hq st hst _ _ hsub _ mask s r s' ls hm h
    split at h
    · obtain ⟨⟨c1, t1, k1⟩, h1, h⟩ := bind_eq_ok.mp h
      cases h
      obtain ⟨acts, h2, h3, _⟩ := ih _ _ _ _ _ hm h1
      exact ⟨acts, h2, h3, by simp⟩
    · exact scanLoopD_tells hq st hst _ _ hsub _ mask s r s' ls hm h

/-- C122 (`mbus_scan_2nd_address_range`): a mask that is not 16 characters long is named; otherwise the lines are those of the probes, in
order, with one more line for each probe that failed; a call that fails is not silent. -/
theorem C122_scan (hq : Recalls d) (st : Settings) (hst : 0 ≤ st.maxSearchRetry) (s : σ) (log : List Act) (pos : Int) (mask : List Byte) (r : Int)
    (s' : σ × List Act) (ls : List Note) (h : scanRangeD d.logged st (s, log) pos mask = .ok (r, s', ls)) :
    (mask.length ≠ 16 ∧ r = -1 ∧ s' = (s, log) ∧
      ls = [⟨cs! "mbus_scan_2nd_address_range", cs! "Illegal address mask [" ++ mask ++ cs! "]. Not 16 characters long."⟩]) ∨
    (mask.length = 16 ∧ ∃ acts, s'.2 = log ++ acts ∧ ScanTells acts ls ∧ (r ≠ 0 → ls ≠ []) ∧ ((pos < 0 ∨ 16 ≤ pos) → acts = [])) := by
  unfold scanRangeD at h
  split at h
  · rename_i hl
    cases h
    exact .inl ⟨hl, rfl, rfl, rfl⟩
  · rename_i hl
    have hl : mask.length = 16 := Classical.not_not.mp hl
    right
    refine ⟨hl, ?_⟩
    split at h
    · cases h
      exact ⟨[], by simp, .nil, by simp, fun _ => rfl⟩
    · rename_i hp
      obtain ⟨acts, h1, h2, h3⟩ := scanAtD_tells hq st hst _ (s, log) mask r s' ls hl h
      exact ⟨acts, h1, h2, h3, fun h => absurd h (by omega)⟩

end
end Mbus
