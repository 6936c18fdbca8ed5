import Verif.Spec.Handle
import Verif.Lemmas.Sendrecv
/- the log is a passive observer: a logged run does what the run without log does -/
namespace Mbus
open Spec

theorem logged_send_eq {σ : Type} (o : Ops σ) (s : σ) (log : List Act) (f : Frame) :
    o.logged.send (s, log) f = match o.send s f with | .error e => .error e | .ok (r, f', s') => .ok (r, f', (s', log ++ [.sent f r])) := by
  show (o.send s f >>= _) = _
  cases o.send s f <;> rfl

theorem logged_recv_eq {σ : Type} (o : Ops σ) (s : σ) (log : List Act) (f : Frame) :
    o.logged.recv (s, log) f = match o.recv s f with | .error e => .error e | .ok (r, f', s') => .ok (r, f', (s', log ++ [.received r f'])) := by
  show (o.recv s f >>= _) = _
  cases o.recv s f <;> rfl

theorem logged_purge_eq {σ : Type} (o : Ops σ) (s : σ) (log : List Act) :
    o.logged.purge (s, log) = match o.purge s with | .error e => .error e | .ok (r, s') => .ok (r, (s', log ++ [.purged r])) := by
  show (o.purge s >>= _) = _
  cases o.purge s <;> rfl

set_option linter.unusedVariables false in
theorem sr_logged {σ : Type} (o : Ops σ) (max mf : Int) (s : σ) (log : List Act) (req : Frame)
    (done : List Frame) (cur : Frame) (x : FrameData) (p : RecPtr) (retry count : Int) :
    unlog (sendrecvLoop o.logged max mf (s, log) req done cur x p retry count) = sendrecvLoop o max mf s req done cur x p retry count := by
  rw [sendrecvLoop, sendrecvLoop]
  by_cases hr : retry > max
  · rw [dif_pos hr, dif_pos hr]; rfl
  rw [dif_neg hr, dif_neg hr, logged_send_eq]
  cases h1 : o.send s req with
  | error e => rfl
  | ok q =>
    obtain ⟨r, req', s1⟩ := q
    simp only
    by_cases hm : r = -1
    · rw [if_pos hm, if_pos hm]; rfl
    rw [if_neg hm, if_neg hm, logged_recv_eq]
    cases h2 : o.recv s1 cur with
    | error e => rfl
    | ok q =>
      obtain ⟨c, cur', s2⟩ := q
      simp only
      by_cases hc : c = RECV_OK
      · rw [if_pos hc, if_pos hc, logged_purge_eq]
        cases h3 : o.purge s2 with
        | error e => rfl
        | ok q =>
          obtain ⟨r, s3⟩ := q
          simp only
          cases h4 : frameDataParse cur' x with
          | error e => rfl
          | ok q =>
            obtain ⟨pr, x'⟩ := q
            simp only
            by_cases h5 : pr = -1
            · rw [if_pos h5, if_pos h5]; rfl
            rw [if_neg h5, if_neg h5]
            by_cases h6 : x'.type = DATA_VARIABLE ∧ x'.var.more ≠ 0 ∧ mf > 0 ∧ count + 1 < mf
            · rw [dif_pos h6, dif_pos h6]
              cases h7 : (p.parse cur' x').free with
              | error e => rfl
              | ok p' => exact sr_logged o max mf s3 _ _ _ _ x' p' 0 (count + 1)
            · rw [dif_neg h6, dif_neg h6]
              cases h7 : (p.parse cur' x').free with
              | error e => rfl
              | ok p' => rfl
      · rw [if_neg hc, if_neg hc]
        by_cases hc2 : c = RECV_TIMEOUT
        · rw [if_pos hc2, if_pos hc2]
          exact sr_logged o max mf s2 _ _ _ _ x p (retry + 1) count
        · rw [if_neg hc2, if_neg hc2]
          by_cases hc3 : c = RECV_INVALID
          · rw [if_pos hc3, if_pos hc3, logged_purge_eq]
            cases h3 : o.purge s2 with
            | error e => rfl
            | ok q =>
              obtain ⟨r, s3⟩ := q
              exact sr_logged o max mf s3 _ _ _ _ x p (retry + 1) count
          · rw [if_neg hc3, if_neg hc3]; rfl
termination_by ((mf - count).toNat, (max + 1 - retry).toNat)
decreasing_by
  · apply Prod.Lex.left; omega
  · apply Prod.Lex.right; omega
  · apply Prod.Lex.right; omega

end Mbus
