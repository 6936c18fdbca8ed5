import Verif.Model.Calls
import Verif.Base
/- what the session functions spend, given what the operations of the handle spend -/
namespace Mbus

/-- a transmission earns 12, a receive or a purge costs at most 6 -/
structure Costs {σ : Type} (o : Ops σ) (d : σ → Int) : Prop where
  send : ∀ s f r f' s', o.send s f = .ok (r, f', s') → d s' ≤ d s ∧ (r ≠ -1 → d s' + 12 ≤ d s)
  recv : ∀ s f r f' s', o.recv s f = .ok (r, f', s') → d s' ≤ d s + 6
  purge : ∀ s r s', o.purge s = .ok (r, s') → d s' ≤ d s + 6
  progress : ∀ s m, d (o.progress s m) ≤ d s
  found : ∀ s a f, d (o.found s a f) ≤ d s

section
variable {σ : Type} {o : Ops σ} {d : σ → Int} (H : Costs o d)
include H

theorem sent_cost (s : σ) (f : Frame) (r : Int) (s' : σ)
    (h : (o.send s f >>= fun q => if q.1 = -1 then .ok (-1, q.2.2) else .ok ((0 : Int), q.2.2)) = .ok (r, s')) : d s' ≤ d s ∧ (r ≠ -1 → d s' + 12 ≤ d s) := by
  obtain ⟨⟨r1, f1, s1⟩, h1, h⟩ := bind_eq_ok.mp h
  have := H.send _ _ _ _ _ h1
  by_cases hr : r1 = -1
  · simp only [hr, if_true] at h; cases h; exact ⟨this.1, fun h => absurd rfl h⟩
  · simp only [hr, if_false] at h; cases h; exact ⟨this.1, fun _ => this.2 hr⟩

theorem sendRequest_cost (s : σ) (a r : Int) (s' : σ) (h : sendRequest o s a = .ok (r, s')) : d s' ≤ d s ∧ (r ≠ -1 → d s' + 12 ≤ d s) := by
  unfold sendRequest at h
  split at h
  · cases h; exact ⟨Int.le_refl _, fun h => absurd rfl h⟩
  · exact sent_cost H _ _ _ _ h

theorem sendPing_cost (s : σ) (a : Int) (p : Bool) (r : Int) (s' : σ) (h : sendPing o s a p = .ok (r, s')) : d s' ≤ d s := by
  unfold sendPing at h
  split at h
  · cases h; exact Int.le_refl _
  · obtain ⟨⟨r1, f1, s1⟩, h1, h⟩ := bind_eq_ok.mp h
    have hs := H.send _ _ _ _ _ h1
    by_cases hr : r1 = -1
    · simp only [hr, if_true] at h; cases h; exact hs.1
    · simp only [hr, if_false] at h
      have := hs.2 hr
      cases p with
      | false => simp only [Bool.false_eq_true, if_false] at h; cases h; exact hs.1
      | true =>
        simp only [if_true] at h
        obtain ⟨⟨r2, s2⟩, h2, h⟩ := bind_eq_ok.mp h
        have := H.purge _ _ _ h2
        cases h
        (try dsimp only)
        omega

theorem sendBaud_cost (s : σ) (a b r : Int) (s' : σ) (h : sendBaud o s a b = .ok (r, s')) : d s' ≤ d s := by
  unfold sendBaud at h
  split at h
  · cases h; exact Int.le_refl _
  · split at h
    · cases h; exact Int.le_refl _
    · exact (sent_cost H _ _ _ _ h).1

theorem sendAppReset_cost (s : σ) (a b r : Int) (s' : σ) (h : sendAppReset o s a b = .ok (r, s')) : d s' ≤ d s := by
  unfold sendAppReset at h
  by_cases h1 : isPrimaryAddress a = false
  · rw [if_pos h1] at h; cases h; exact Int.le_refl _
  rw [if_neg h1] at h
  by_cases h2 : b > 0xFF
  · rw [if_pos h2] at h; cases h; exact Int.le_refl _
  rw [if_neg h2] at h
  dsimp only at h
  split at h
  · obtain ⟨f, _, h⟩ := bind_eq_ok.mp h
    exact (sent_cost H _ _ _ _ h).1
  · exact (sent_cost H _ _ _ _ h).1

theorem sendUserData_cost (s : σ) (a : Int) (data : List Byte) (n : Nat) (r : Int) (s' : σ) (h : sendUserData o s a data n = .ok (r, s')) : d s' ≤ d s := by
  unfold sendUserData at h
  by_cases h1 : isPrimaryAddress a = false
  · rw [if_pos h1] at h; cases h; exact Int.le_refl _
  rw [if_neg h1] at h
  by_cases h2 : n > 252 ∨ n = 0
  · rw [if_pos h2] at h; cases h; exact Int.le_refl _
  rw [if_neg h2] at h
  obtain ⟨f, _, h⟩ := bind_eq_ok.mp h
  exact (sent_cost H _ _ _ _ h).1

theorem setPrimaryAddress_cost (s : σ) (a b r : Int) (s' : σ) (h : setPrimaryAddress o s a b = .ok (r, s')) : d s' ≤ d s := by
  unfold setPrimaryAddress at h
  split at h
  · cases h; exact Int.le_refl _
  · split at h
    · cases h; exact Int.le_refl _
    · exact sendUserData_cost H _ _ _ _ _ _ h

theorem sendSelect_cost (s : σ) (m : List Byte) (r : Int) (s' : σ) (h : sendSelect o s m = .ok (r, s')) : d s' ≤ d s ∧ (r ≠ -1 → d s' + 12 ≤ d s) := by
  unfold sendSelect at h
  obtain ⟨⟨r1, f⟩, _, h⟩ := bind_eq_ok.mp h
  by_cases hr : r1 = -1
  · simp only [hr, if_true] at h; cases h; exact ⟨Int.le_refl _, fun h => absurd rfl h⟩
  · simp only [hr, if_false] at h; exact sent_cost H _ _ _ _ h

theorem select_cost (s : σ) (m : List Byte) (r : Int) (s' : σ) (h : selectSecondary o s m = .ok (r, s')) : d s' ≤ d s := by
  unfold selectSecondary at h
  split at h
  · cases h; exact Int.le_refl _
  obtain ⟨⟨r1, s1⟩, h1, h⟩ := bind_eq_ok.mp h
  have hs := sendSelect_cost H _ _ _ _ h1
  by_cases hr : r1 = -1
  · simp only [hr, if_true] at h; cases h; exact hs.1
  simp only [hr, if_false] at h
  have hs := hs.2 hr
  obtain ⟨⟨r2, f2, s2⟩, h2, h⟩ := bind_eq_ok.mp h
  have hr2 := H.recv _ _ _ _ _ h2
  dsimp only at h
  split at h
  · cases h; (try dsimp only); omega
  split at h
  · obtain ⟨⟨r3, s3⟩, h3, h⟩ := bind_eq_ok.mp h
    have := H.purge _ _ _ h3
    cases h; (try dsimp only); omega
  split at h
  · obtain ⟨⟨r3, s3⟩, h3, h⟩ := bind_eq_ok.mp h
    have := H.purge _ _ _ h3
    dsimp only at h
    split at h <;> (cases h; (try dsimp only); omega)
  · cases h; (try dsimp only); omega

theorem probeSelected_cost (s : σ) (r : Int) (a : Option (List Byte)) (s' : σ) (h : probeSelected o s = .ok (r, a, s')) : d s' ≤ d s := by
  unfold probeSelected at h
  obtain ⟨⟨r1, s1⟩, h1, h⟩ := bind_eq_ok.mp h
  have hs := sendRequest_cost H _ _ _ _ h1
  by_cases hr : r1 = -1
  · simp only [hr, if_true] at h; cases h; exact hs.1
  simp only [hr, if_false] at h
  have hs := hs.2 hr
  obtain ⟨⟨r2, f2, s2⟩, h2, h⟩ := bind_eq_ok.mp h
  have hr2 := H.recv _ _ _ _ _ h2
  dsimp only at h
  split at h
  · cases h; (try dsimp only); omega
  split at h
  · obtain ⟨⟨r3, s3⟩, h3, h⟩ := bind_eq_ok.mp h
    have := H.purge _ _ _ h3
    cases h; (try dsimp only); omega
  obtain ⟨⟨r3, s3⟩, h3, h⟩ := bind_eq_ok.mp h
  have := H.purge _ _ _ h3
  dsimp only at h
  split at h
  · cases h; (try dsimp only); omega
  split at h
  · obtain ⟨q, _, h⟩ := bind_eq_ok.mp h
    cases q with
    | none => cases h; (try dsimp only); omega
    | some t =>
      have := H.found s3 (t.take 16) f2
      cases h
      (try dsimp only)
      omega
  · cases h; (try dsimp only); omega

theorem probeLoop_cost (m : List Byte) (n : Nat) : ∀ (s : σ) (ret r : Int) (a : Option (List Byte)) (s' : σ), probeLoop o s m ret n = .ok (r, a, s') → d s' ≤ d s := by
  induction n with
  | zero => intro s ret r a s' h; cases h; exact Int.le_refl _
  | succ n ih =>
    intro s ret r a s' h
    rw [probeLoop] at h
    obtain ⟨⟨r1, s1⟩, h1, h⟩ := bind_eq_ok.mp h
    have hs := select_cost H _ _ _ _ h1
    dsimp only at h
    split at h
    · have := probeSelected_cost H _ _ _ _ h; omega
    split at h
    · cases h; exact hs
    · have := ih _ _ _ _ _ h; omega

theorem probe_cost (st : Settings) (s : σ) (m : List Byte) (r : Int) (a : Option (List Byte)) (s' : σ) (h : probeSecondary o st s m = .ok (r, a, s')) : d s' ≤ d s := by
  unfold probeSecondary at h
  split at h
  · cases h; exact Int.le_refl _
  · exact probeLoop_cost H _ _ _ _ _ _ _ h

theorem scanLoop_cost (st : Settings) (pos : Nat) (sub : σ → List Byte → C (Int × σ)) (hsub : ∀ s m r s', sub s m = .ok (r, s') → d s' ≤ d s) (ds : List Byte) :
    ∀ (m : List Byte) (s : σ) (r : Int) (s' : σ), scanLoop o st pos sub m ds s = .ok (r, s') → d s' ≤ d s := by
  induction ds with
  | nil => intro m s r s' h; cases h; exact Int.le_refl _
  | cons x ds ih =>
    intro m s r s' h
    rw [scanLoop] at h
    obtain ⟨⟨r1, a1, s1⟩, h1, h⟩ := bind_eq_ok.mp h
    have := probe_cost H _ _ _ _ _ _ h1
    have := H.progress s (m.set pos x)
    dsimp only at h
    split at h
    · have := ih _ _ _ _ h; omega
    split at h
    · obtain ⟨⟨r2, s2⟩, h2, h⟩ := bind_eq_ok.mp h
      have := hsub _ _ _ _ h2
      have := ih _ _ _ _ h
      dsimp only at this
      omega
    split at h
    · have := ih _ _ _ _ h; omega
    · cases h; (try dsimp only); omega

theorem scanAt_cost (st : Settings) (n : Nat) : ∀ (s : σ) (m : List Byte) (r : Int) (s' : σ), scanAt o st n s m = .ok (r, s') → d s' ≤ d s := by
  induction n with
  | zero => intro s m r s' h; cases h; exact Int.le_refl _
  | succ n ih =>
    intro s m r s' h
    rw [scanAt] at h
    obtain ⟨c, _, h⟩ := bind_eq_ok.mp h
    split at h
    · exact scanLoop_cost H st _ _ ih _ _ _ _ _ h
    split at h
    · obtain ⟨⟨r1, s1⟩, h1, h⟩ := bind_eq_ok.mp h
      have := ih _ _ _ _ h1
      cases h; exact this
    · exact scanLoop_cost H st _ _ ih _ _ _ _ _ h

theorem scan_cost (st : Settings) (s : σ) (pos : Int) (m : List Byte) (r : Int) (s' : σ) (h : scanRange o st s pos m = .ok (r, s')) : d s' ≤ d s := by
  unfold scanRange at h
  split at h
  · cases h; exact Int.le_refl _
  split at h
  · cases h; exact Int.le_refl _
  · exact scanAt_cost H _ _ _ _ _ _ h

theorem readSlave_cost (s : σ) (a : Address) (f : Frame) (r : Int) (f' : Frame) (s' : σ) (h : readSlave o s a f = .ok (r, f', s')) : d s' ≤ d s := by
  have last : ∀ (r1 : Int) s1, d s1 ≤ d s → (r1 ≠ -1 → d s1 + 12 ≤ d s) → (if r1 = (-1 : Int) then .ok (-1, f, s1) else do
      let (c, reply, s) ← o.recv s1 f
      if c ≠ 0 then .ok (-1, reply, s) else .ok (0, reply, s)) = .ok (r, f', s') → d s' ≤ d s := by
    intro r1 s1 hle h12 h
    by_cases hr : r1 = -1
    · simp only [hr, if_true] at h; cases h; exact hle
    simp only [hr, if_false] at h
    have := h12 hr
    obtain ⟨⟨r2, f2, s2⟩, h2, h⟩ := bind_eq_ok.mp h
    have := H.recv _ _ _ _ _ h2
    dsimp only at h
    split at h <;> (cases h; (try dsimp only); omega)
  unfold readSlave at h
  cases a with
  | primary a =>
    obtain ⟨⟨r1, s1⟩, h1, h⟩ := bind_eq_ok.mp h
    have := sendRequest_cost H _ _ _ _ h1
    exact last r1 s1 this.1 this.2 h
  | secondary t =>
    obtain ⟨⟨p, s0⟩, h0, h⟩ := bind_eq_ok.mp h
    have h0 := select_cost H _ _ _ _ h0
    dsimp only at h
    by_cases c1 : p = PROBE_COLLISION
    · rw [if_pos c1] at h; exact last _ _ h0 (fun h => absurd rfl h) h
    rw [if_neg c1] at h
    by_cases c2 : p = PROBE_NOTHING
    · rw [if_pos c2] at h; exact last _ _ h0 (fun h => absurd rfl h) h
    rw [if_neg c2] at h
    by_cases c3 : p = PROBE_ERROR
    · rw [if_pos c3] at h; exact last _ _ h0 (fun h => absurd rfl h) h
    rw [if_neg c3] at h
    obtain ⟨⟨r1, s1⟩, h1, h⟩ := bind_eq_ok.mp h
    have := sendRequest_cost H _ _ _ _ h1
    exact last r1 s1 (by omega) (fun h => by have := this.2 h; omega) h

theorem sendrecvLoop_cost (maxRetry maxFrames : Int) (s : σ) (req : Frame) (done : List Frame) (cur : Frame)
    (x : FrameData) (p : RecPtr) (retry count : Int) : ∀ out, sendrecvLoop o maxRetry maxFrames s req done cur x p retry count = .ok out → d out.state ≤ d s := by
  fun_induction sendrecvLoop o maxRetry maxFrames s req done cur x p retry count
  all_goals
    intro out h
    have hs := fun s f r f' s' h => H.send s f r f' s' h
    have hr := fun s f r f' s' h => H.recv s f r f' s' h
    have hp := fun s r s' h => H.purge s r s' h
    grind

theorem sendrecv_cost (st : Settings) (s : σ) (a : Int) (reply : Frame) (mf : Int) (out : SrOut σ) (h : sendrecvRequest o st s a reply mf = .ok out) : d out.state ≤ d s := by
  unfold sendrecvRequest at h
  split at h
  · cases h; exact Int.le_refl _
  · exact sendrecvLoop_cost H _ _ _ _ _ _ _ _ _ _ _ h

end
end Mbus
