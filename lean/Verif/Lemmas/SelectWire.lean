import Verif.Lemmas.Garbled
import Verif.Lemmas.Select
/- selection on the wire -/
namespace Mbus
open Spec

theorem selBytes_length (mask : List Byte) (hm : AddressMask mask) : (selBytes mask).length = 8 := by
  obtain ⟨d, _, h2⟩ := selectPack_eq (frameNew TYPE_LONG) mask hm.1 hm.2
  rw [← h2]; simp

theorem bus_sendSelect (k : Kind) (env : Env) (ho : IsOpen k env) (hw : Writable env) (purge : Int) (sent : List (List Byte)) (mask : List Byte)
    (hm : AddressMask mask) :
    sendSelect ((busLink k env).ops purge) ⟨[], sent⟩ mask = .ok (0, ⟨env.respond (sent ++ [(selT mask).wire]), sent ++ [(selT mask).wire]⟩) := by
  obtain ⟨d, h1, h2⟩ := selectPack_eq (frameNew TYPE_LONG) mask hm.1 hm.2
  have hlen := selBytes_length mask hm
  have hp := packs_long 0x73 0xFD 0x52 d 8 (by omega)
  rw [h2] at hp
  have hs := bus_send k env ho ⟨[], sent⟩ _ _ (show Telegram.Legal (.data 0x73 0xFD 0x52 (selBytes mask)) from ⟨(by decide : (0x73 : Byte) ∈ dataCodes), by omega⟩) hp
  unfold sendSelect
  rw [h1, ok_bind]
  simp only
  rw [if_neg (by decide)]
  show ((busLink k env).send ⟨[], sent⟩ _ >>= _) = _
  rw [hs, hw, if_pos rfl, ok_bind]
  simp only
  rw [if_neg (by decide)]
  rfl

theorem bus_sendRequest (k : Kind) (env : Env) (ho : IsOpen k env) (hw : Writable env) (purge : Int) (sent : List (List Byte)) (a : Int) (ha : 0 ≤ a ∧ a ≤ 255) :
    sendRequest ((busLink k env).ops purge) ⟨[], sent⟩ a =
      .ok (0, ⟨env.respond (sent ++ [(Telegram.short 0x5B (UInt8.ofNat a.toNat)).wire]), sent ++ [(Telegram.short 0x5B (UInt8.ofNat a.toNat)).wire]⟩) := by
  have hs := bus_send k env ho ⟨[], sent⟩ _ _ (show Telegram.Legal (.short 0x5B (UInt8.ofNat a.toNat)) from (by decide : (0x5B : Byte) ∈ shortCodes))
    (packs_short 0x5B (UInt8.ofNat a.toNat))
  unfold sendRequest
  rw [if_neg (by rw [(isPrimary_iff a).mpr ha]; decide)]
  show ((busLink k env).send ⟨[], sent⟩ { frameNew TYPE_SHORT with control := 0x5B, address := UInt8.ofNat a.toNat } >>= _) = _
  rw [hs, hw, if_pos rfl, ok_bind]
  simp only
  rw [if_neg (by decide)]
  rfl

section
variable (k : Kind) (env : Env) (ho : IsOpen k env) (hw : Writable env) (purge : Int) (hp : purge ≠ PURGE_S2M) (sent : List (List Byte))
  (mask : List Byte) (hm : AddressMask mask)
include ho hw hm

theorem select_silence (hr : env.respond (sent ++ [(selT mask).wire]) = []) :
    selectSecondary ((busLink k env).ops purge) ⟨[], sent⟩ mask = .ok (PROBE_NOTHING, ⟨[], sent ++ [(selT mask).wire]⟩) := by
  unfold selectSecondary
  rw [if_neg (by have := hm.1; omega), bus_sendSelect k env ho hw purge sent mask hm, ok_bind]
  simp only
  rw [if_neg (by decide), hr]
  show (recvFrame (busLink k env) purge ⟨[], _⟩ Frame.zero >>= _) = _
  rw [recv_silent k env ho, ok_bind]
  simp only
  rw [if_pos trivial]

include hp

theorem select_garbage (cs : List (List Byte)) (hc : Chunks cs) (hr : env.respond (sent ++ [(selT mask).wire]) = evs cs)
    (hg : Garbled cs.flatten) :
    selectSecondary ((busLink k env).ops purge) ⟨[], sent⟩ mask = .ok (PROBE_COLLISION, ⟨[], sent ++ [(selT mask).wire]⟩) := by
  unfold selectSecondary
  rw [if_neg (by have := hm.1; omega), bus_sendSelect k env ho hw purge sent mask hm, ok_bind]
  simp only
  rw [if_neg (by decide), hr]
  obtain ⟨f', cs', h1, h2⟩ := recv_garbled k env ho purge hp (sent ++ [(selT mask).wire]) cs hc hg
  show (recvFrame (busLink k env) purge ⟨evs cs, _⟩ Frame.zero >>= _) = _
  rw [h1, ok_bind]
  simp only
  rw [if_neg (by decide), if_pos trivial]
  obtain ⟨r, h3⟩ := purge_drains k env ho purge (sent ++ [(selT mask).wire]) cs' h2
  show (purgeFrames (busLink k env) purge ⟨evs cs', _⟩ >>= _) = _
  rw [h3, ok_bind]

theorem select_ack (cs : List (List Byte)) (hc : Chunks cs) (hr : env.respond (sent ++ [(selT mask).wire]) = evs cs)
    (rest : List Byte) (hh : cs.flatten = 0xE5 :: rest) :
    ∃ r, selectSecondary ((busLink k env).ops purge) ⟨[], sent⟩ mask = .ok (r, ⟨[], sent ++ [(selT mask).wire]⟩) ∧
      (r = PROBE_SINGLE ∨ r = PROBE_COLLISION) ∧ (rest = [] → r = PROBE_SINGLE) ∧
      (Garbled rest → r = PROBE_COLLISION) := by
  unfold selectSecondary
  rw [if_neg (by have := hm.1; omega), bus_sendSelect k env ho hw purge sent mask hm, ok_bind]
  simp only
  rw [if_neg (by decide), hr]
  obtain ⟨g, cs', h1, h2, h3, h4⟩ := recv_ack1 k env ho purge hp (sent ++ [(selT mask).wire]) cs hc rest hh Frame.zero
  have h2 : g.type = TYPE_ACK := h2
  show ∃ r, (recvFrame (busLink k env) purge ⟨evs cs, _⟩ Frame.zero >>= _) = _ ∧ _
  rw [h1, ok_bind]
  simp only
  rw [if_neg (by decide), if_neg (by decide), if_pos h2]
  obtain ⟨p, h5⟩ := purge_drains k env ho purge (sent ++ [(selT mask).wire]) cs' h3
  show ∃ r, (purgeFrames (busLink k env) purge ⟨evs cs', _⟩ >>= _) = _ ∧ _
  rw [h5, ok_bind]
  simp only
  by_cases hp0 : p ≠ 0
  · rw [if_pos hp0]
    refine ⟨_, rfl, .inr rfl, fun hnil => ?_, fun _ => rfl⟩
    exfalso
    have hcs : cs' = [] := by
      cases cs' with
      | nil => rfl
      | cons c cs' =>
        rw [hnil] at h4
        simp only [List.flatten_cons, List.append_eq_nil_iff] at h4
        exact absurd h4.1 (h3 c (by simp))
    rw [hcs, show evs [] = [] from rfl, purge_silent k env ho] at h5
    cases h5
    exact hp0 rfl
  · rw [if_neg hp0]
    refine ⟨_, rfl, .inl rfl, fun _ => rfl, fun hg => ?_⟩
    exfalso
    rw [purge_garbled k env ho purge hp _ cs' h3 (by rw [h4]; exact hg)] at h5
    cases h5
    exact hp0 (by decide)

end

end Mbus
