import Verif.Lemmas.Tools
import Verif.Props.Xml
import Verif.Props.Command
import Verif.Spec.Command
/-
Lemmas about the command line tools on a wire.
-/
namespace Mbus
open Spec

section
variable {σ : Type} (o : Ops σ)

/-- the end of every command: transmit, translate the result -/
theorem send_log (s : σ) (log : List Act) (f : Frame) (r : Int) (s' : σ × List Act)
    (h : (o.logged.send (s, log) f >>= fun q => if q.1 = -1 then .ok (-1, q.2.2) else .ok (0, q.2.2)) = Except.ok (ε := Fault) (r, s')) :
    ∃ c, s'.2 = log ++ [.sent f c] ∧ ((c = -1 ∧ r = -1) ∨ (c ≠ -1 ∧ r = 0)) := by
  rw [logged_send_eq] at h
  cases hs : o.send s f with
  | error e => rw [hs] at h; cases h
  | ok q =>
    obtain ⟨c, f', s1⟩ := q
    rw [hs] at h
    simp only [ok_bind] at h
    by_cases hc1 : c = -1
    · rw [if_pos hc1] at h
      cases h
      exact ⟨c, rfl, .inl ⟨hc1, rfl⟩⟩
    · rw [if_neg hc1] at h
      cases h
      exact ⟨c, rfl, .inr ⟨hc1, rfl⟩⟩

theorem baud_log (s : σ) (log : List Act) (a : Int) (baud : Int) (r : Int) (s' : σ × List Act) (h : sendBaud o.logged (s, log) a baud = .ok (r, s')) :
    ((¬ (0 ≤ a ∧ a ≤ 255) ∨ ∀ ci, (baud, ci) ∉ baudTable) ∧ r = -1 ∧ s' = (s, log)) ∨
    ((0 ≤ a ∧ a ≤ 255) ∧ ∃ ci, (baud, ci) ∈ baudTable ∧ ∃ f c, CommandFrame (UInt8.ofNat a.toNat) ci [] f ∧ s'.2 = log ++ [.sent f c] ∧
      ((c = -1 ∧ r = -1) ∨ (c ≠ -1 ∧ r = 0))) := by
  unfold sendBaud at h
  by_cases ha : isPrimaryAddress a = false
  · rw [if_pos ha] at h
    cases h
    refine .inl ⟨.inl fun hh => ?_, rfl, rfl⟩
    rw [(isPrimary_iff a).mpr hh] at ha
    cases ha
  · rw [if_neg ha] at h
    have ha' : 0 ≤ a ∧ a ≤ 255 := (isPrimary_iff a).mp (by cases hh : isPrimaryAddress a; exact absurd hh ha; rfl)
    by_cases hb : ∃ ci, (baud, ci) ∈ baudTable
    · obtain ⟨ci, hb⟩ := hb
      rw [baudCode_some baud ci hb] at h
      obtain ⟨c, h1, h2⟩ := send_log o s log _ r s' h
      exact .inr ⟨ha', ci, hb, _, c, ⟨.inr ⟨rfl, rfl⟩, rfl, rfl, rfl, rfl, rfl⟩, h1, h2⟩
    · have hb' : ∀ ci, (baud, ci) ∉ baudTable := fun ci h => hb ⟨ci, h⟩
      rw [baudCode_none baud hb'] at h
      cases h
      exact .inl ⟨.inr hb', rfl, rfl⟩

theorem reset_log (s : σ) (log : List Act) (a sub : Int) (r : Int) (s' : σ × List Act) (h : sendAppReset o.logged (s, log) a sub = .ok (r, s')) :
    ((¬ (0 ≤ a ∧ a ≤ 255) ∨ 255 < sub) ∧ r = -1 ∧ s' = (s, log)) ∨
    ((0 ≤ a ∧ a ≤ 255) ∧ sub ≤ 255 ∧ ∃ f c, CommandFrame (UInt8.ofNat a.toNat) 0x50 (resetPayload sub) f ∧ s'.2 = log ++ [.sent f c] ∧
      ((c = -1 ∧ r = -1) ∨ (c ≠ -1 ∧ r = 0))) := by
  unfold sendAppReset at h
  by_cases ha : isPrimaryAddress a = false
  · rw [if_pos ha] at h
    cases h
    refine .inl ⟨.inl fun hh => ?_, rfl, rfl⟩
    rw [(isPrimary_iff a).mpr hh] at ha
    cases ha
  · rw [if_neg ha] at h
    have ha' : 0 ≤ a ∧ a ≤ 255 := (isPrimary_iff a).mp (by cases hh : isPrimaryAddress a; exact absurd hh ha; rfl)
    by_cases hb : sub > 0xFF
    · rw [if_pos hb] at h
      cases h
      exact .inl ⟨.inr hb, rfl, rfl⟩
    · rw [if_neg hb] at h
      refine .inr ⟨ha', by omega, ?_⟩
      dsimp only at h
      by_cases hs : sub ≥ 0
      · rw [if_pos hs] at h
        obtain ⟨d, hd, ht⟩ : ∃ d : Buf 252, (frameNew TYPE_LONG).data.wr 0 (UInt8.ofNat sub.toNat) = .ok d ∧ d.bytes.take 1 = [UInt8.ofNat sub.toNat] := by
          obtain ⟨a0, a1, a2, a3, a4, a5, a6, a7, t, ht, hd⟩ := split8 (frameNew TYPE_LONG).data
          rw [hd]
          exact ⟨⟨UInt8.ofNat sub.toNat :: a1 :: a2 :: a3 :: a4 :: a5 :: a6 :: a7 :: t, ht⟩, rfl, rfl⟩
        rw [hd, ok_bind, ok_bind] at h
        obtain ⟨c, h1, h2⟩ := send_log o s log _ r s' h
        refine ⟨_, c, ?_, h1, h2⟩
        unfold resetPayload
        rw [if_pos hs]
        exact ⟨.inl rfl, rfl, rfl, rfl, rfl, ht⟩
      · rw [if_neg hs, ok_bind] at h
        obtain ⟨c, h1, h2⟩ := send_log o s log _ r s' h
        refine ⟨_, c, ?_, h1, h2⟩
        unfold resetPayload
        rw [if_neg hs]
        exact ⟨.inl rfl, rfl, rfl, rfl, rfl, rfl⟩

end

section
variable (k : Kind) (env : Env) (ho : IsOpen k env) (hw : Writable env) (purge : Int) (hp : purge ≠ PURGE_S2M)
include ho hw

theorem bus_pingPurge (sent : List (List Byte)) (a : Nat) (ha : a ≤ 255) (cs : List (List Byte)) (hc : Chunks cs)
    (hr : env.respond (sent ++ [pingWire (UInt8.ofNat a)]) = evs cs) :
    sendPing ((busLink k env).ops purge) ⟨[], sent⟩ a true = .ok (0, ⟨[], sent ++ [pingWire (UInt8.ofNat a)]⟩) := by
  have hs := bus_send k env ho ⟨[], sent⟩ _ _ (show Spec.Telegram.Legal (.short 0x40 (UInt8.ofNat a)) from (by decide : (0x40 : Byte) ∈ shortCodes))
    (packs_short 0x40 (UInt8.ofNat a))
  unfold sendPing
  rw [if_neg (by rw [(isPrimary_iff (a : Int)).mpr (by omega)]; decide)]
  show ((busLink k env).send ⟨[], sent⟩ { frameNew TYPE_SHORT with control := 0x40, address := UInt8.ofNat (a : Int).toNat } >>= _) = _
  rw [show (a : Int).toNat = a from rfl, hs, hw, if_pos rfl, ok_bind]
  simp only
  rw [if_neg (by decide), if_pos trivial]
  obtain ⟨r, h⟩ := purge_drains k env ho purge (sent ++ [pingWire (UInt8.ofNat a)]) cs hc
  show (purgeFrames (busLink k env) purge ⟨env.respond (sent ++ [pingWire (UInt8.ofNat a)]), sent ++ [pingWire (UInt8.ofNat a)]⟩ >>= _) = _
  rw [hr, h, ok_bind]

theorem init_wire (before after : List (List Byte)) (hr : Resettable env before after) :
    initSlaves ((busLink k env).ops purge) ⟨[], before⟩ 0xFD = .ok (true, ⟨[], after⟩) := by
  obtain ⟨rfl, ⟨cs1, hc1, h1⟩, ⟨cs2, hc2, h2⟩⟩ := hr
  unfold initSlaves
  have e1 := bus_pingPurge k env ho hw purge before 0xFD (by decide) cs1 hc1 h1
  have e2 := bus_pingPurge k env ho hw purge (before ++ [pingWire 0xFD]) 0xFD (by decide) cs2 hc2 h2
  rw [show (0xFD : Int) = ((0xFD : Nat) : Int) from rfl, e1, ok_bind]
  simp only
  rw [if_neg (by decide)]
  erw [e2]
  rw [ok_bind]
  simp only
  rw [if_neg (by decide)]
  rfl

include hp in
theorem reach_wire (addr : List Byte) (before : List (List Byte)) (dest : Byte) (after : List (List Byte)) (hr : Reachable env addr before dest after) :
    reach ((busLink k env).ops purge) ⟨[], before⟩ addr = .ok (some dest.toNat, ⟨[], after⟩) := by
  unfold reach
  cases hr with
  | primary n hn hm hle =>
    rw [if_neg (by rw [isSecondary_iff]; exact hm), atoi_numeral hn (by omega)]
    congr 3
    simp; omega
  | secondary cs hm hi hc hf hr =>
    rw [if_pos ((isSecondary_iff addr).mpr hm)]
    have e : selBytes addr = addressBytes addr := selBytes_eq addr hm.1 hm.2 hi
    obtain ⟨r, h1, _, h3, _⟩ := select_ack k env ho hw purge hp before addr hm cs hc (by unfold selT; rw [e]; exact hr) [] hf
    rw [h1, h3 rfl, ok_bind]
    simp only
    rw [if_neg (by decide)]
    unfold selT
    rw [e]
    rfl

theorem setPrimary_wire (sent : List (List Byte)) (dest : Byte) (new : Nat) (hn : new ≤ 252) (t : Spec.Telegram)
    (ht : t = .data 0x53 dest 0x51 [0x01, 0x7A, UInt8.ofNat new]) :
    setPrimaryAddress ((busLink k env).ops purge) ⟨[], sent⟩ dest.toNat new = .ok (0, ⟨env.respond (sent ++ [t.wire]), sent ++ [t.wire]⟩) := by
  subst ht
  unfold setPrimaryAddress
  rw [if_neg (by rw [(isPrimary_iff (new : Int)).mpr (by omega)]; decide), if_neg (by omega)]
  unfold sendUserData
  have := dest.toNat_lt
  rw [if_neg (by rw [(isPrimary_iff (dest.toNat : Int)).mpr (by omega)]; decide), if_neg (by decide)]
  have e : ucharOfInt (new : Int) = UInt8.ofNat new := by
    unfold ucharOfInt
    rw [Int.emod_eq_of_lt (by omega) (by omega)]
    rfl
  rw [e]
  dsimp only
  rw [show ∀ d : Buf 252, copyInto d [0x01, 0x7A, UInt8.ofNat new] 3 = .ok ⟨[0x01, 0x7A, UInt8.ofNat new].take 3 ++ d.bytes.drop 3, by simp⟩ from
      fun d => by unfold copyInto; rw [if_neg (by decide), dif_pos (by simp)], ok_bind]
  have hpk := packs_long 0x53 dest 0x51 ⟨[0x01, 0x7A, UInt8.ofNat new].take 3 ++ (frameNew TYPE_LONG).data.bytes.drop 3, by simp⟩ 3 (by decide)
  have hs := bus_send k env ho ⟨[], sent⟩ _ _ (show Spec.Telegram.Legal (.data 0x53 dest 0x51 [0x01, 0x7A, UInt8.ofNat new]) from
    ⟨(by decide : (0x53 : Byte) ∈ dataCodes), (by decide : 3 ≤ 252)⟩) hpk
  show ((busLink k env).send ⟨[], sent⟩ { frameNew TYPE_LONG with control := 0x53, address := UInt8.ofNat (dest.toNat : Int).toNat, ci := 0x51, dataSize := 3, data := _ } >>= _) = _
  rw [show UInt8.ofNat (dest.toNat : Int).toNat = dest from by simp, hs, hw, if_pos rfl, ok_bind]
  simp only
  rw [if_neg (by decide)]
  rfl

end

end Mbus
