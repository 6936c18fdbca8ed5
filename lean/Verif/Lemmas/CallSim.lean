import Verif.Model.Calls
import Verif.Lemmas.ToolScan
/- a program on a link that does the same on another state does the same -/
namespace Mbus
open Spec

/-- `l'` does on `φ s` what `l` does on `s` -/
structure LinkSim {σ τ : Type} (l : Link σ) (l' : Link τ) (φ : σ → τ) : Prop where
  send : ∀ s f, l'.send (φ s) f = (l.send s f).map (mapS3 φ)
  recv : ∀ s f, l'.recv (φ s) f = (l.recv s f).map (mapS3 φ)

section
variable {σ τ : Type} {l : Link σ} {l' : Link τ} {φ : σ → τ} (k : LinkSim l l' φ)
include k

theorem recvFrame_sim (purge : Int) (s : σ) (f : Frame) : recvFrame l' purge (φ s) f = (recvFrame l purge s f).map (mapS3 φ) := by
  unfold recvFrame
  rw [k.recv, map_bind, bind_map]
  apply bind_congr'
  rintro ⟨r, f, s⟩
  simp only [map_if, map_ok, mapS3, k.recv]

theorem purgeLoop_sim (purge : Int) (s : σ) (f : Frame) (n : Int) : purgeLoop l' purge (φ s) f n = (purgeLoop l purge s f n).map (mapS φ) := by
  fun_induction purgeLoop l purge s f n with
  | case1 s f n e h =>
    rw [purgeLoop]
    have h' := recvFrame_sim k purge s f
    rw [h] at h'
    split
    · next e' he => rw [h'] at he; cases he; rfl
    · next he => rw [h'] at he; cases he
  | case2 s f n err f' s' h hc =>
    rw [purgeLoop]
    have h' := recvFrame_sim k purge s f
    rw [h] at h'
    split
    · next e' he => rw [h'] at he; cases he
    · next he =>
      rw [h'] at he
      cases he
      rw [dif_pos hc]
      rfl
  | case3 s f n err f' s' h hc ih =>
    rw [purgeLoop]
    have h' := recvFrame_sim k purge s f
    rw [h] at h'
    split
    · next e' he => rw [h'] at he; cases he
    · next he =>
      rw [h'] at he
      cases he
      rw [dif_neg hc]
      exact ih

theorem ops_sim (purge : Int) : SimulatesAll (l.ops purge) (l'.ops purge) φ :=
  ⟨⟨k.send, recvFrame_sim k purge, fun s => purgeLoop_sim k purge s _ _⟩, fun _ _ => rfl, fun _ _ _ => rfl⟩

end

section
variable {σ τ : Type} {o : Ops σ} {o' : Ops τ} {φ : σ → τ}

theorem finish_sim (h : Simulates o o' φ) (s : σ) (f : Frame) :
    (o'.send (φ s) f >>= fun q => if q.1 = -1 then .ok (-1, q.2.2) else .ok ((0 : Int), q.2.2)) =
      (o.send s f >>= fun q => if q.1 = -1 then .ok (-1, q.2.2) else .ok ((0 : Int), q.2.2)).map (mapS φ) := by
  rw [h.send, map_bind, bind_map]
  apply bind_congr'
  rintro ⟨r, f, s⟩
  simp only [map_if, map_ok, mapS]

theorem sendPing_sim (h : Simulates o o' φ) (s : σ) (a : Int) (d : Bool) : sendPing o' (φ s) a d = (sendPing o s a d).map (mapS φ) := by
  unfold sendPing
  rw [map_if]
  split
  · rfl
  · dsimp only
    rw [h.send, map_bind, bind_map]
    apply bind_congr'
    rintro ⟨r, f, s⟩
    simp only [map_if, map_ok, mapS]
    split
    · rfl
    split
    · rw [h.purge, map_bind, bind_map]
      rfl
    · rfl

theorem sendBaud_sim (h : Simulates o o' φ) (s : σ) (a b : Int) : sendBaud o' (φ s) a b = (sendBaud o s a b).map (mapS φ) := by
  unfold sendBaud
  rw [map_if]
  split
  · rfl
  · split
    · rfl
    · exact finish_sim h s _

theorem sendAppReset_sim (h : Simulates o o' φ) (s : σ) (a b : Int) : sendAppReset o' (φ s) a b = (sendAppReset o s a b).map (mapS φ) := by
  unfold sendAppReset
  rw [map_if]
  split
  · rfl
  · rw [map_if]
    split
    · rfl
    · dsimp only
      rw [map_if]
      split
      · rw [bind_map]
        apply bind_congr'
        intro d
        exact finish_sim h s _
      · exact finish_sim h s _

theorem sendUserData_sim (h : Simulates o o' φ) (s : σ) (a : Int) (d : List Byte) (n : Nat) :
    sendUserData o' (φ s) a d n = (sendUserData o s a d n).map (mapS φ) := by
  unfold sendUserData
  rw [map_if]
  split
  · rfl
  · rw [map_if]
    split
    · rfl
    · dsimp only
      rw [bind_map]
      apply bind_congr'
      intro f
      exact finish_sim h s _

theorem setAddress_sim (h : Simulates o o' φ) (s : σ) (a b : Int) : setPrimaryAddress o' (φ s) a b = (setPrimaryAddress o s a b).map (mapS φ) := by
  unfold setPrimaryAddress
  rw [map_if]
  split
  · rfl
  · rw [map_if]
    split
    · rfl
    · exact sendUserData_sim h ..

theorem readSlave_sim (h : Simulates o o' φ) (s : σ) (a : Address) (f : Frame) : readSlave o' (φ s) a f = (readSlave o s a f).map (mapS3 φ) := by
  have last : ∀ (r : Int) s, (if r = (-1 : Int) then .ok (-1, f, φ s) else do
      let (c, reply, s) ← o'.recv (φ s) f
      if c ≠ 0 then .ok (-1, reply, s) else .ok (0, reply, s)) = Except.map (mapS3 φ) (if r = (-1 : Int) then .ok (-1, f, s) else do
      let (c, reply, s) ← o.recv s f
      if c ≠ 0 then .ok (-1, reply, s) else .ok (0, reply, s)) := by
    intro r s
    rw [map_if]
    split
    · rfl
    · rw [h.recv, map_bind, bind_map]
      apply bind_congr'
      rintro ⟨r, f, s⟩
      simp only [map_if, map_ok, mapS3]
  unfold readSlave
  cases a with
  | primary a =>
    dsimp only
    rw [sendRequest_sim h, map_bind, bind_map]
    apply bind_congr'
    rintro ⟨r, s⟩
    exact last r s
  | secondary t =>
    dsimp only
    rw [selectSecondary_sim h, map_bind, bind_map]
    apply bind_congr'
    rintro ⟨r, s⟩
    show (if r = PROBE_COLLISION then _ else if r = PROBE_NOTHING then _ else if r = PROBE_ERROR then _ else _) =
      Except.map (mapS3 φ) (if r = PROBE_COLLISION then _ else if r = PROBE_NOTHING then _ else if r = PROBE_ERROR then _ else _)
    by_cases h1 : r = PROBE_COLLISION
    · rw [if_pos h1, if_pos h1]
      exact last (-1) s
    rw [if_neg h1, if_neg h1]
    by_cases h2 : r = PROBE_NOTHING
    · rw [if_pos h2, if_pos h2]
      exact last (-1) s
    rw [if_neg h2, if_neg h2]
    by_cases h3 : r = PROBE_ERROR
    · rw [if_pos h3, if_pos h3]
      exact last (-1) s
    rw [if_neg h3, if_neg h3]
    simp only [mapS]
    rw [sendRequest_sim h, map_bind, bind_map]
    apply bind_congr'
    rintro ⟨r, s⟩
    exact last r s

end

section
variable {σ τ : Type} {l : Link σ} {l' : Link τ} {φ : σ → τ} (k : LinkSim l l' φ)
include k

theorem call_sim (h : Settings × σ) (c : Call) : c.run l' (h.1, φ h.2) = (c.run l h).map (mapS φ) := by
  obtain ⟨st, s⟩ := h
  have ka := ops_sim k st.purgeFirst
  have ks := ka.toSimulates
  unfold Call.run
  cases c <;> dsimp only <;> try (rw [bind_map])
  · rw [ks.send, map_bind]; rfl
  · rw [ks.recv, map_bind]; rfl
  · rw [ks.purge, map_bind]; rfl
  · rw [sendRequest_sim ks, map_bind]; rfl
  · rw [sendPing_sim ks, map_bind]; rfl
  · rw [sendBaud_sim ks, map_bind]; rfl
  · rw [sendAppReset_sim ks, map_bind]; rfl
  · rw [sendUserData_sim ks, map_bind]; rfl
  · rw [setAddress_sim ks, map_bind]; rfl
  · rw [sendSelect_sim ks, map_bind]; rfl
  · rw [selectSecondary_sim ks, map_bind]; rfl
  · rw [probe_sim ka, map_bind]; rfl
  · rw [scan_sim ka, map_bind]; rfl
  · rw [readSlave_sim ks, map_bind]; rfl
  · rw [sendrecv_sim _ _ _ ks, map_bind]; rfl
  · rfl

theorem calls_sim (cs : List Call) (h : Settings × σ) : runCalls l' (h.1, φ h.2) cs = (runCalls l h cs).map (mapS φ) := by
  induction cs generalizing h with
  | nil => rfl
  | cons c cs ih =>
    unfold runCalls
    rw [call_sim k, map_bind, bind_map]
    apply bind_congr'
    intro h
    exact ih h

end
end Mbus
