import Verif.Model.ReadsLink
import Verif.Spec.Reads
import Verif.Lemmas.Costs
import Verif.Lemmas.CallSim
/- what the operations of the two transports spend in reads -/
namespace Mbus
open Spec

theorem arrivedAll_snoc (env : Env) (sent : List (List Byte)) (bs : List Byte) :
    arrivedAll env (sent ++ [bs]) = arrivedAll env sent + evWeight (env.respond (sent ++ [bs])) := by
  unfold arrivedAll
  rw [List.length_append, List.length_singleton, List.range_succ, List.map_append, List.sum_append]
  simp only [List.map_cons, List.map_nil, List.sum_cons, List.sum_nil, Nat.add_zero]
  congr 1
  · congr 1
    apply List.map_congr_left
    intro i hi
    rw [List.take_append_of_le_length (by have := List.mem_range.mp hi; omega)]
  · rw [List.take_of_length_le (by simp)]

/-- the debt of a handle: reads made, minus what arrived and was transmitted -/
def debt (env : Env) (b : Bus × Nat) : Int :=
  b.2 + 7 * evWeight b.1.script - 7 * arrivedAll env b.1.sent - 12 * b.1.sent.length

theorem sendFrame_unwritten {t : Bool} {junk : Nat → Byte} {wret : Nat → Int} {f g : Frame} {r : Int} (h2 : sendFrame t junk wret f = .ok (r, g, none)) : r = -1 := by
  unfold sendFrame at h2
  split at h2
  · cases h2; rfl
  obtain ⟨⟨len, g, bf⟩, _, h2⟩ := bind_eq_ok.mp h2
  dsimp only at h2
  split at h2
  · cases h2; rfl
  split at h2
  · cases h2
  split at h2 <;> cases h2

theorem readsLink_send (k : Kind) (env : Env) (s : Bus × Nat) (f : Frame) (r : Int) (f' : Frame) (s' : Bus × Nat)
    (h : (readsLink k env).send s f = .ok (r, f', s')) : debt env s' ≤ debt env s ∧ (r ≠ -1 → debt env s' + 12 ≤ debt env s) := by
  obtain ⟨⟨r1, f1, b1⟩, h1, h⟩ := bind_eq_ok.mp h
  cases h
  obtain ⟨⟨r2, f2, w⟩, h2, h1⟩ := bind_eq_ok.mp h1
  cases w with
  | none =>
    cases h1
    refine ⟨Int.le_refl _, fun hr => absurd ?_ hr⟩
    exact sendFrame_unwritten h2
  | some bs =>
    cases h1
    have e : debt env (({ script := s.1.script ++ env.respond (s.1.sent ++ [bs]), sent := s.1.sent ++ [bs] } : Bus), s.2) + 12 ≤ debt env s := by
      unfold debt
      rw [arrivedAll_snoc, evWeight_append]
      simp only [List.length_append, List.length_singleton]
      omega
    exact ⟨by omega, fun _ => e⟩

theorem readsLink_recv (k : Kind) (env : Env) (s : Bus × Nat) (f : Frame) (r : Int) (f' : Frame) (s' : Bus × Nat)
    (h : (readsLink k env).recv s f = .ok (r, f', s')) : debt env s' ≤ debt env s + 3 ∧ (r = RECV_OK ∨ r = RECV_INVALID → debt env s' + 3 ≤ debt env s) := by
  have hle := (readsLink k env).recv_le _ _ _ _ _ h
  have hlt := (readsLink k env).recv_lt _ _ _ _ _ h
  obtain ⟨⟨out, m⟩, h1, h⟩ := bind_eq_ok.mp h
  cases h
  have hb := (kindRecvR_bound _ _ _ _ _ h1).2
  have hb : m + evWeight out.rest ≤ evWeight s.1.script + 3 := by
    cases k <;> (dsimp only at hb; omega)
  have hle : evWeight out.rest ≤ evWeight s.1.script := hle
  have hlt : out.code = RECV_OK ∨ out.code = RECV_INVALID → evWeight out.rest < evWeight s.1.script := hlt
  unfold debt
  dsimp only
  exact ⟨by omega, fun h => by have := hlt h; omega⟩

theorem recvFrame_debt (k : Kind) (env : Env) (purge : Int) (s : Bus × Nat) (f : Frame) (r : Int) (f' : Frame) (s' : Bus × Nat)
    (h : recvFrame (readsLink k env) purge s f = .ok (r, f', s')) : debt env s' ≤ debt env s + 6 ∧ (r = RECV_OK ∨ r = RECV_INVALID → debt env s' ≤ debt env s) := by
  unfold recvFrame at h
  obtain ⟨⟨r1, f1, s1⟩, h1, h⟩ := bind_eq_ok.mp h
  have a := readsLink_recv k env _ _ _ _ _ h1
  have again : (readsLink k env).recv s1 f1 = .ok (r, f', s') → debt env s' ≤ debt env s + 6 ∧ (r = RECV_OK ∨ r = RECV_INVALID → debt env s' ≤ debt env s) := by
    intro h
    have b := readsLink_recv k env _ _ _ _ _ h
    exact ⟨by omega, fun hr => by have := b.2 hr; omega⟩
  have once : (Except.ok (r1, f1, s1) : C (Int × Frame × (Bus × Nat))) = .ok (r, f', s') → debt env s' ≤ debt env s + 6 ∧ (r = RECV_OK ∨ r = RECV_INVALID → debt env s' ≤ debt env s) := by
    intro h
    cases h
    exact ⟨by omega, fun hr => by have := a.2 hr; omega⟩
  dsimp only at h
  split at h
  · split at h
    · exact again h
    · exact once h
  split at h
  · split at h
    · exact again h
    · exact once h
  · exact once h

theorem purgeLoop_debt (k : Kind) (env : Env) (purge : Int) (w : Nat) : ∀ (s : Bus × Nat) (f : Frame) (got r : Int) (s' : Bus × Nat), evWeight s.1.script ≤ w →
    purgeLoop (readsLink k env) purge s f got = .ok (r, s') → debt env s' ≤ debt env s + 6 := by
  induction w using Nat.strongRecOn with
  | _ w ih =>
    intro s f got r s' hw h
    rw [purgeLoop] at h
    split at h
    · cases h
    · rename_i e f1 s1 h1
      have hd := recvFrame_debt k env purge _ _ _ _ _ h1
      by_cases hc : e ≠ RECV_OK ∧ e ≠ RECV_INVALID
      · rw [dif_pos hc] at h; cases h; exact hd.1
      · rw [dif_neg hc] at h
        have hok : e = RECV_OK ∨ e = RECV_INVALID := by
          by_cases h0 : e = RECV_OK
          · exact .inl h0
          · exact .inr (Decidable.byContradiction fun h1 => hc ⟨h0, h1⟩)
        have hlt : evWeight s1.1.script < evWeight s.1.script := recvFrame_lt _ _ _ _ _ _ _ h1 hok
        have := ih _ (by omega) s1 f1 1 r s' (Nat.le_refl _) h
        have := hd.2 hok
        omega

theorem reads_costs (k : Kind) (env : Env) (purge : Int) : Costs ((readsLink k env).ops purge) (debt env) where
  send := readsLink_send k env
  recv := fun s f r f' s' h => (recvFrame_debt k env purge s f r f' s' h).1
  purge := fun s r s' h => purgeLoop_debt k env purge _ s Frame.zero 0 r s' (Nat.le_refl _) h
  progress := fun _ _ => Int.le_refl _
  found := fun _ _ _ => Int.le_refl _

/-- forgetting the count -/
theorem reads_sim (k : Kind) (env : Env) : LinkSim (readsLink k env) (busLink k env) Prod.fst where
  send s f := by
    show (busLink k env).send s.1 f = Except.map _ ((busLink k env).send s.1 f >>= _)
    cases (busLink k env).send s.1 f <;> rfl
  recv s f := by
    show (kindRecv k env.tty s.1.script f >>= _) = Except.map _ (kindRecvR k env.tty s.1.script f >>= _)
    rw [← kindRecvR_eq]
    cases kindRecvR k env.tty s.1.script f <;> rfl

theorem call_debt (k : Kind) (env : Env) (h : Settings × Bus × Nat) (c : Call) (h' : Settings × Bus × Nat) (e : c.run (readsLink k env) h = .ok h') :
    debt env h'.2 ≤ debt env h.2 + 6 * bareReceives [c] := by
  have H := reads_costs k env h.1.purgeFirst
  have z : ∀ (c : Call), bareReceives [c] = 0 ∨ 0 ≤ bareReceives [c] := fun _ => .inr (Nat.zero_le _)
  cases c with
  | send f =>
    obtain ⟨⟨r, g, s⟩, h1, e⟩ := bind_eq_ok.mp e
    cases e; have := (H.send _ _ _ _ _ h1).1; dsimp only; omega
  | recv f =>
    obtain ⟨⟨r, g, s⟩, h1, e⟩ := bind_eq_ok.mp e
    cases e; exact H.recv _ _ _ _ _ h1
  | purge =>
    obtain ⟨⟨r, s⟩, h1, e⟩ := bind_eq_ok.mp e
    cases e; exact H.purge _ _ _ h1
  | request a =>
    obtain ⟨⟨r, s⟩, h1, e⟩ := bind_eq_ok.mp e
    cases e; have := (sendRequest_cost H _ _ _ _ h1).1; dsimp only; omega
  | ping a p =>
    obtain ⟨⟨r, s⟩, h1, e⟩ := bind_eq_ok.mp e
    cases e; have := sendPing_cost H _ _ _ _ _ h1; dsimp only; omega
  | baud a b =>
    obtain ⟨⟨r, s⟩, h1, e⟩ := bind_eq_ok.mp e
    cases e; have := sendBaud_cost H _ _ _ _ _ h1; dsimp only; omega
  | reset a b =>
    obtain ⟨⟨r, s⟩, h1, e⟩ := bind_eq_ok.mp e
    cases e; have := sendAppReset_cost H _ _ _ _ _ h1; dsimp only; omega
  | userData a b n =>
    obtain ⟨⟨r, s⟩, h1, e⟩ := bind_eq_ok.mp e
    cases e; have := sendUserData_cost H _ _ _ _ _ _ h1; dsimp only; omega
  | setAddress a b =>
    obtain ⟨⟨r, s⟩, h1, e⟩ := bind_eq_ok.mp e
    cases e; have := setPrimaryAddress_cost H _ _ _ _ _ h1; dsimp only; omega
  | sendSelect m =>
    obtain ⟨⟨r, s⟩, h1, e⟩ := bind_eq_ok.mp e
    cases e; have := (sendSelect_cost H _ _ _ _ h1).1; dsimp only; omega
  | select m =>
    obtain ⟨⟨r, s⟩, h1, e⟩ := bind_eq_ok.mp e
    cases e; have := select_cost H _ _ _ _ h1; dsimp only; omega
  | probe m =>
    obtain ⟨⟨r, g, s⟩, h1, e⟩ := bind_eq_ok.mp e
    cases e; have := probe_cost H _ _ _ _ _ _ h1; dsimp only; omega
  | scan p m =>
    obtain ⟨⟨r, s⟩, h1, e⟩ := bind_eq_ok.mp e
    cases e; have := scan_cost H _ _ _ _ _ _ h1; dsimp only; omega
  | readSlave a f =>
    obtain ⟨⟨r, g, s⟩, h1, e⟩ := bind_eq_ok.mp e
    cases e; have := readSlave_cost H _ _ _ _ _ _ h1; dsimp only; omega
  | sendrecv a f n =>
    obtain ⟨out, h1, e⟩ := bind_eq_ok.mp e
    cases e; have := sendrecv_cost H _ _ _ _ _ _ h1; dsimp only; omega
  | option w v => cases e; dsimp only; omega

theorem calls_debt (k : Kind) (env : Env) (cs : List Call) : ∀ (h h' : Settings × Bus × Nat), runCalls (readsLink k env) h cs = .ok h' →
    debt env h'.2 ≤ debt env h.2 + 6 * bareReceives cs := by
  induction cs with
  | nil => intro h h' e; cases e; exact Int.le_add_of_nonneg_right (by omega)
  | cons c cs ih =>
    intro h h' e
    obtain ⟨h1, e1, e⟩ := bind_eq_ok.mp e
    have a := call_debt k env _ _ _ e1
    have b := ih _ _ e
    have : bareReceives (c :: cs) = bareReceives [c] + bareReceives cs := by
      unfold bareReceives
      rw [List.filter_cons, List.filter_cons]
      split <;> simp <;> omega
    omega

end Mbus
