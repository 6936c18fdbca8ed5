import Verif.Lemmas.Meter
import Verif.Props.Record
/- one exchange of a multi-telegram request on a bus where every transmission is answered -/
namespace Mbus
open Spec

theorem sr_step (k : Kind) (reply : Nat → Telegram) (purge : Int) (hpurge : purge ≠ PURGE_S2M) (sent : List (List Byte))
    (hl : (reply (sent.length + 1)).Legal) (hs : FromSlave (reply (sent.length + 1))) (a : Byte) (i : Nat) (req : Frame) (hreq : ReqFrame a i req)
    (max mf : Int) (done : List Frame) (cur : Frame) (x : FrameData) (p : RecPtr) (retry count : Int) (hretry : retry ≤ max) :
    ∃ cur', Carries cur' (reply (sent.length + 1)) ∧
      sendrecvLoop ((busLink k (replyEnv reply)).ops purge) max mf ⟨[], sent⟩ req done cur x p retry count =
        match frameDataParse cur' x with
        | .error e => .error e
        | .ok (pr, x) =>
          if pr = -1 then .ok ⟨1, done ++ [cur'], p.parse cur' x, ⟨[], sent ++ [(Telegram.short (ctl i) a).wire]⟩⟩
          else if x.type = DATA_VARIABLE ∧ x.var.more ≠ 0 ∧ mf > 0 ∧ count + 1 < mf then
            match (p.parse cur' x).free with
            | .error e => .error e
            | .ok p => sendrecvLoop ((busLink k (replyEnv reply)).ops purge) max mf ⟨[], sent ++ [(Telegram.short (ctl i) a).wire]⟩
                { fixed req with control := (fixed req).control ^^^ MASK_FCB } (done ++ [cur']) (frameNew TYPE_ANY) x p 0 (count + 1)
          else
            match (p.parse cur' x).free with
            | .error e => .error e
            | .ok p => .ok ⟨0, done ++ [cur'], p, ⟨[], sent ++ [(Telegram.short (ctl i) a).wire]⟩⟩ := by
  have ho : IsOpen k (replyEnv reply) := .inr rfl
  have hs' : ((busLink k (replyEnv reply)).ops purge).send ⟨[], sent⟩ req =
      .ok (0, fixed req, ⟨[.data (reply (sent.length + 1)).wire], sent ++ [(Telegram.short (ctl i) a).wire]⟩) := by
    show (busLink k (replyEnv reply)).send ⟨[], sent⟩ req = _
    rw [bus_send k (replyEnv reply) ho ⟨[], sent⟩ req _ (ctl_legal a _) (reqFrame_packs hreq),
      if_pos (show (replyEnv reply).wret _ _ = ((Telegram.short (ctl i) a).wire.length : Int) from rfl)]
    unfold busAfter
    have : (replyEnv reply).respond (sent ++ [(Telegram.short (ctl i) a).wire]) = [.data (reply (sent.length + 1)).wire] := by
      show [Ev.data (reply (sent ++ [(Telegram.short (ctl i) a).wire]).length).wire] = _
      simp
    simp only [List.nil_append, this]
  obtain ⟨cur', hr1, hr2⟩ := recv_clean k (replyEnv reply) ho purge hpurge (sent ++ [(Telegram.short (ctl i) a).wire]) _ hl hs cur
  have hr' : ((busLink k (replyEnv reply)).ops purge).recv ⟨[.data (reply (sent.length + 1)).wire], sent ++ [(Telegram.short (ctl i) a).wire]⟩ cur = _ := hr1
  have hp' : ((busLink k (replyEnv reply)).ops purge).purge ⟨[], sent ++ [(Telegram.short (ctl i) a).wire]⟩ = _ :=
    purge_silent k (replyEnv reply) ho purge _
  refine ⟨cur', hr2, ?_⟩
  rw [sendrecvLoop, dif_neg (by omega), hs']
  simp only
  rw [if_neg (by decide), hr']
  simp only
  rw [if_pos trivial, hp']
  simp only
  cases frameDataParse cur' x with
  | error e => rfl
  | ok q =>
    obtain ⟨pr, x⟩ := q
    simp only
    split
    · rfl
    · split <;> rfl

theorem first_request (a : Byte) : ReqFrame a 0 { frameNew TYPE_SHORT with
    control := MASK_REQ_UD2 ||| MASK_DIR_M2S ||| MASK_FCV ||| MASK_FCB
    address := a } := ⟨rfl, rfl, rfl, rfl, rfl⟩

end Mbus
