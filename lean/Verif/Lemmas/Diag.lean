import Verif.Model.Diag
import Verif.Lemmas.CallSim
import Verif.Lemmas.MessagesIo
import Verif.Props.Messages
/- Lemmas for Props/Diag.lean: without their lines the functions of Model/Diag are those of Model/Session. -/
set_option linter.unusedSimpArgs false
namespace Mbus
open Spec

section
variable {σ τ : Type} {d : Desk σ} {o : Ops τ} {φ : σ → τ}

theorem ite_both {α : Type} {c : Prop} [Decidable c] {x x' y y' : α} (hx : x = x') (hy : y = y') : (if c then x else y) = if c then x' else y' := by
  rw [hx, hy]

/-- the handle does not look at `error_str` -/
def Blind (d : Desk σ) (φ : σ → τ) : Prop := ∀ s t, φ (d.tell s t) = φ s

theorem hear_blind (b : Blind d φ) (s : σ) (m : Said) : φ (d.hear s m) = φ s := by
  cases m with
  | none => rfl
  | some t => exact b s t

/-- without the lines -/
def dropN (φ : σ → τ) {α β : Type} (q : α × σ × β) : α × τ := (q.1, φ q.2.1)
def dropN3 (φ : σ → τ) {α β γ : Type} (q : α × β × σ × γ) : α × β × τ := (q.1, q.2.1, φ q.2.2.1)

theorem selectPackE_mute (f : Frame) (s : List Byte) : silent2 (selectPackE f s) = selectPack f s := by
  unfold selectPackE
  split
  · rename_i h
    rw [selectPack_bad f s h]; rfl
  · rw [silent2_bind]
    cases selectPack f s <;> rfl

theorem getSecondaryE_mute (f : Frame) : silent (getSecondaryAddressE f) = getSecondaryAddress f := by
  unfold getSecondaryAddressE getSecondaryAddress
  split
  · rfl
  · have h := frameDataParseE_mute f FrameData.new
    unfold silent2 at h
    unfold silent
    rw [← h, map_bind, bind_map]
    apply bind_congr'
    rintro ⟨r, x, m⟩
    simp only [map_if, map_ok, bind_map]

theorem finishD_mute (h : Simulates d.toOps o φ) (fn : List Byte) (s : σ) (f : Frame) :
    (do let (r, _, s) ← o.send (φ s) f
        if r = -1 then .ok (-1, s) else .ok (0, s) : C (Int × τ)) = (finishD d fn s f).map (dropN φ) := by
  unfold finishD
  rw [h.send, map_bind, bind_map]
  apply bind_congr'
  rintro ⟨r, f, s⟩
  simp only [map_if, map_ok, dropN]

theorem sendRequestD_mute (h : Simulates d.toOps o φ) (s : σ) (a : Int) : sendRequest o (φ s) a = (sendRequestD d s a).map (dropN φ) := by
  unfold sendRequest sendRequestD
  rw [map_if]
  split
  · rfl
  · exact finishD_mute h _ s _

theorem sendPingD_mute (h : Simulates d.toOps o φ) (s : σ) (a : Int) (p : Bool) : sendPing o (φ s) a p = (sendPingD d s a p).map (dropN φ) := by
  unfold sendPing sendPingD
  rw [map_if]
  split
  · rfl
  · dsimp only
    rw [h.send, map_bind, bind_map]
    apply bind_congr'
    rintro ⟨r, f, s⟩
    simp only [map_if, map_ok]
    rw [h.purge, map_bind, bind_map]
    rfl

theorem sendBaudD_mute (h : Simulates d.toOps o φ) (s : σ) (a b : Int) : sendBaud o (φ s) a b = (sendBaudD d s a b).map (dropN φ) := by
  unfold sendBaud sendBaudD
  rw [map_if]
  split
  · rfl
  · cases baudCode b with
    | none => rfl
    | some ci => exact finishD_mute h _ s _

theorem sendAppResetD_mute (h : Simulates d.toOps o φ) (s : σ) (a b : Int) : sendAppReset o (φ s) a b = (sendAppResetD d s a b).map (dropN φ) := by
  unfold sendAppReset sendAppResetD
  rw [map_if]
  split
  · rfl
  · rw [map_if]
    split
    · rfl
    · dsimp only
      rw [map_if]
      split
      · rw [bind_map]
        apply bind_congr'
        intro f
        exact finishD_mute h _ s _
      · exact finishD_mute h _ s _

theorem sendUserDataD_mute (h : Simulates d.toOps o φ) (s : σ) (a : Int) (x : List Byte) (n : Nat) :
    sendUserData o (φ s) a x n = (sendUserDataD d s a x n).map (dropN φ) := by
  unfold sendUserData sendUserDataD
  rw [map_if]
  split
  · rfl
  · rw [map_if]
    split
    · rfl
    · dsimp only
      rw [bind_map]
      apply bind_congr'
      intro f
      exact finishD_mute h _ s _

theorem setPrimaryAddressD_mute (h : Simulates d.toOps o φ) (s : σ) (a b : Int) :
    setPrimaryAddress o (φ s) a b = (setPrimaryAddressD d s a b).map (dropN φ) := by
  unfold setPrimaryAddress setPrimaryAddressD
  rw [map_if, map_if, sendUserDataD_mute h]
  rfl

theorem sendSelectD_mute (h : Simulates d.toOps o φ) (b : Blind d φ) (s : σ) (m : List Byte) :
    sendSelect o (φ s) m = (sendSelectD d s m).map (dropN φ) := by
  unfold sendSelect sendSelectD
  rw [← selectPackE_mute]
  unfold silent2
  rw [map_bind, bind_map]
  apply bind_congr'
  rintro ⟨r, f, t⟩
  simp only [map_if, map_ok, dropN, hear_blind b]
  rw [← hear_blind b s t, h.send, map_bind, bind_map]
  refine ite_both rfl ?_
  apply bind_congr'
  rintro ⟨r, f, s⟩
  simp only [map_if, map_ok, dropN]

theorem selectSecondaryD_mute (h : Simulates d.toOps o φ) (b : Blind d φ) (s : σ) (m : List Byte) :
    selectSecondary o (φ s) m = (selectSecondaryD d s m).map (dropN φ) := by
  unfold selectSecondary selectSecondaryD
  rw [map_if]
  split
  · rfl
  · rw [sendSelectD_mute h b, map_bind, bind_map]
    apply bind_congr'
    rintro ⟨r, s, ls⟩
    simp only [map_if, map_ok, dropN]
    split
    · rfl
    rw [h.recv, map_bind, bind_map]
    apply bind_congr'
    rintro ⟨r, f, s⟩
    simp only [map_if, map_ok]
    split
    · rfl
    split
    · rw [h.purge, map_bind, bind_map]
      rfl
    split
    · rw [h.purge, map_bind, bind_map]
      apply bind_congr'
      rintro ⟨p, s⟩
      simp only [map_if, map_ok, dropN]
    · rfl

theorem probeSelectedD_mute (h : SimulatesAll d.toOps o φ) (b : Blind d φ) (s : σ) (m : List Byte) :
    probeSelected o (φ s) = (probeSelectedD d s m).map (dropN3 φ) := by
  unfold probeSelected probeSelectedD
  rw [sendRequestD_mute h.toSimulates, map_bind, bind_map]
  apply bind_congr'
  rintro ⟨r, s, ls⟩
  simp only [map_if, map_ok, dropN]
  split
  · rfl
  rw [h.recv, map_bind, bind_map]
  apply bind_congr'
  rintro ⟨r, f, s⟩
  simp only [map_if, map_ok]
  split
  · rfl
  split
  · rw [h.purge, map_bind, bind_map]
    rfl
  rw [h.purge, map_bind, bind_map]
  apply bind_congr'
  rintro ⟨p, s⟩
  simp only [map_if, map_ok]
  split
  · rfl
  split
  · rw [← getSecondaryE_mute]
    unfold silent
    rw [map_bind, bind_map]
    apply bind_congr'
    rintro ⟨a, t⟩
    cases a with
    | none => simp only [map_ok, dropN3, hear_blind b]
    | some a => simp only [map_ok, dropN3, ← h.found, hear_blind b]
  · rfl

theorem probeLoopD_mute (h : SimulatesAll d.toOps o φ) (b : Blind d φ) (m : List Byte) (n : Nat) : ∀ (s : σ) (ret : Int),
    probeLoop o (φ s) m ret n = (probeLoopD d m ret n s).map (dropN3 φ) := by
  induction n with
  | zero => intro s ret; rfl
  | succ n ih =>
    intro s ret
    unfold probeLoop probeLoopD
    rw [selectSecondaryD_mute h.toSimulates b, map_bind, bind_map]
    apply bind_congr'
    rintro ⟨r, s, ls⟩
    simp only [map_if, map_ok, dropN, bind_map]
    rw [probeSelectedD_mute h b s m, ih]
    refine ite_both ?_ ?_
    · cases probeSelectedD d s m <;> rfl
    · refine ite_both rfl ?_
      cases probeLoopD d m r n s <;> rfl

theorem probeSecondaryD_mute (h : SimulatesAll d.toOps o φ) (b : Blind d φ) (st : Settings) (s : σ) (m : List Byte) :
    probeSecondary o st (φ s) m = (probeSecondaryD d st s m).map (dropN3 φ) := by
  unfold probeSecondary probeSecondaryD
  rw [map_if, probeLoopD_mute h b]
  rfl

theorem scanLoopD_mute (h : SimulatesAll d.toOps o φ) (b : Blind d φ) (st : Settings) (p : Nat) (sub : σ → List Byte → C (Int × σ × List Note))
    (sub' : τ → List Byte → C (Int × τ)) (hs : ∀ s m, sub' (φ s) m = (sub s m).map (dropN φ)) (ds : List Byte) : ∀ (m : List Byte) (s : σ),
    scanLoop o st p sub' m ds (φ s) = (scanLoopD d st p sub m ds s).map (dropN φ) := by
  induction ds with
  | nil => intro m s; rfl
  | cons x ds ih =>
    intro m s
    unfold scanLoop scanLoopD
    dsimp only
    rw [h.progress, probeSecondaryD_mute h b, map_bind, bind_map]
    apply bind_congr'
    rintro ⟨r, a, s, ls⟩
    simp only [map_if, map_ok, dropN3, bind_map]
    rw [ih, hs, map_bind]
    refine ite_both ?_ ?_
    · cases scanLoopD d st p sub (m.set p x) ds s <;> rfl
    refine ite_both ?_ ?_
    · apply bind_congr'
      rintro ⟨c, s, ms⟩
      simp only [dropN, ih]
      cases scanLoopD d st p sub (m.set p x) ds s <;> rfl
    refine ite_both ?_ ?_
    · cases scanLoopD d st p sub (m.set p x) ds s <;> rfl
    · rfl

theorem scanAtD_mute (h : SimulatesAll d.toOps o φ) (b : Blind d φ) (st : Settings) (n : Nat) : ∀ (s : σ) (m : List Byte),
    scanAt o st n (φ s) m = (scanAtD d st n s m).map (dropN φ) := by
  induction n with
  | zero => intro s m; rfl
  | succ n ih =>
    intro s m
    unfold scanAt scanAtD
    dsimp only
    rw [bind_map]
    apply bind_congr'
    intro c
    simp only [map_if]
    rw [scanLoopD_mute h b st _ _ _ ih, scanLoopD_mute h b st _ _ _ ih, ih, map_bind, bind_map]
    rfl

theorem scanRangeD_mute (h : SimulatesAll d.toOps o φ) (b : Blind d φ) (st : Settings) (s : σ) (pos : Int) (m : List Byte) :
    scanRange o st (φ s) pos m = (scanRangeD d st s pos m).map (dropN φ) := by
  unfold scanRange scanRangeD
  rw [map_if, map_if, scanAtD_mute h b]
  rfl

theorem readSlaveD_mute (h : Simulates d.toOps o φ) (b : Blind d φ) (s : σ) (a : Address) (f : Frame) :
    readSlave o (φ s) a f = (readSlaveD d s a f).map (dropN3 φ) := by
  have last : ∀ (r : Int) s (ls : List Note), (if r = (-1 : Int) then .ok (-1, f, φ s) else do
      let (c, reply, s) ← o.recv (φ s) f
      if c ≠ 0 then .ok (-1, reply, s) else .ok (0, reply, s)) = Except.map (dropN3 φ) (if r = (-1 : Int) then .ok (-1, f, s, ls) else do
      let (c, reply, s) ← d.recv s f
      if c ≠ 0 then .ok (-1, reply, s, ls ++ [⟨cs! "mbus_read_slave", cs! "Failed to receive M-Bus response frame."⟩])
      else .ok (0, reply, s, ls)) := by
    intro r s ls
    rw [map_if]
    split
    · rfl
    · rw [h.recv, map_bind, bind_map]
      apply bind_congr'
      rintro ⟨r, f, s⟩
      simp only [map_if, map_ok, dropN3]
  unfold readSlave readSlaveD approachD
  cases a with
  | primary a =>
    dsimp only
    unfold askD
    rw [sendRequestD_mute h]
    cases sendRequestD d s a with
    | error e => rfl
    | ok q =>
      obtain ⟨r, s, ls⟩ := q
      simp only [map_ok, ok_bind, dropN]
      by_cases hr : r = -1
      · simp only [hr, if_true, ok_bind]; rfl
      · simp only [hr, if_false, ok_bind]
        have := last r s ls
        simp only [hr, if_false] at this
        exact this
  | secondary t =>
    dsimp only
    rw [selectSecondaryD_mute h b]
    cases selectSecondaryD d s t with
    | error e => rfl
    | ok q =>
      obtain ⟨p, s, ls⟩ := q
      simp only [map_ok, ok_bind, dropN]
      by_cases h1 : p = PROBE_COLLISION
      · simp only [h1, if_true, ok_bind]; rfl
      by_cases h2 : p = PROBE_NOTHING
      · simp only [h1, h2, if_true, ok_bind, if_false]; rfl
      by_cases h3 : p = PROBE_ERROR
      · simp only [h1, h2, h3, if_true, ok_bind, if_false]; rfl
      simp only [h1, h2, h3, if_false]
      unfold askD
      rw [sendRequestD_mute h]
      cases sendRequestD d s 0xFD with
      | error e => rfl
      | ok q =>
        obtain ⟨r, s, ms⟩ := q
        simp only [map_ok, ok_bind, dropN]
        by_cases hr : r = -1
        · simp only [hr, if_true, ok_bind]; rfl
        · simp only [hr, if_false, ok_bind]
          have := last r s (ls ++ ms)
          simp only [hr, if_false] at this
          exact this

theorem dataParseE_split {f : Frame} {x : FrameData} {r : Int} {y : FrameData} (h : frameDataParse f x = .ok (r, y)) :
    ∃ t, frameDataParseE f x = .ok (r, y, t) := by
  rw [← frameDataParseE_mute] at h
  cases h1 : frameDataParseE f x with
  | error e => rw [h1] at h; cases h
  | ok q => rw [h1] at h; cases h; exact ⟨_, rfl⟩

theorem sendrecvLoopD_mute (h : Simulates d.toOps o φ) (b : Blind d φ) (maxRetry maxFrames : Int) (s : σ) (req : Frame) (done : List Frame) (cur : Frame)
    (x : FrameData) (p : RecPtr) (retry count : Int) (ls : List Note) :
    sendrecvLoop o maxRetry maxFrames (φ s) req done cur x p retry count =
      (sendrecvLoopD d maxRetry maxFrames s req done cur x p retry count ls).map fun q => mapOut φ q.1 := by
  fun_induction sendrecvLoopD d maxRetry maxFrames s req done cur x p retry count ls
  all_goals
    rw [sendrecvLoop]
    first | rw [dif_pos (by assumption)] | rw [dif_neg (by assumption)]
    simp_all +zetaDelta [h.send, h.recv, h.purge, Except.map, mapOut, ← frameDataParseE_mute, hear_blind b]
    try grind

theorem sendrecvRequestD_mute (h : Simulates d.toOps o φ) (b : Blind d φ) (st : Settings) (s : σ) (a : Int) (reply : Frame) (mf : Int) :
    sendrecvRequest o st (φ s) a reply mf = (sendrecvRequestD d st s a reply mf).map fun q => mapOut φ q.1 := by
  unfold sendrecvRequest sendrecvRequestD
  rw [map_if]
  split
  · rfl
  · exact sendrecvLoopD_mute h b _ _ _ _ _ _ _ _ _ _ _

end

end Mbus
