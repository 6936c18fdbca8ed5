import Verif.Lemmas.Select
/- the log is a passive observer of probe and scan -/
namespace Mbus
open Spec

/-- forget the log -/
def dropLog {σ α : Type} : C (α × σ × List Act) → C (α × σ)
  | .error e => .error e
  | .ok (r, s) => .ok (r, s.1)

def dropLog3 {σ α β : Type} : C (α × β × σ × List Act) → C (α × β × σ)
  | .error e => .error e
  | .ok (r, a, s) => .ok (r, a, s.1)

section
variable {σ : Type} (o : Ops σ)

theorem sendRequest_passive (s : σ) (log : List Act) (a : Int) : dropLog (sendRequest o.logged (s, log) a) = sendRequest o s a := by
  unfold sendRequest
  by_cases ha : isPrimaryAddress a = false
  · rw [if_pos ha, if_pos ha]; rfl
  rw [if_neg ha, if_neg ha]
  simp only [logged_send_eq]
  generalize ({ frameNew TYPE_SHORT with control := MASK_REQ_UD2 ||| MASK_DIR_M2S, address := UInt8.ofNat a.toNat } : Frame) = f
  cases hs : o.send s f with
  | error e => rfl
  | ok q =>
    obtain ⟨r, f', s'⟩ := q
    simp only [ok_bind]
    by_cases hr : r = -1
    · rw [if_pos hr, if_pos hr]; rfl
    · rw [if_neg hr, if_neg hr]; rfl

theorem select_passive (s : σ) (log : List Act) (m : List Byte) : dropLog (selectSecondary o.logged (s, log) m) = selectSecondary o s m := by
  rw [← select_logged o s log m]
  cases selectSecondary o.logged (s, log) m <;> rfl

theorem bind_dropLog {α β : Type} (x : C (α × σ × List Act)) (y : C (α × σ)) (h : dropLog x = y) (k : α × σ × List Act → C (β × σ × List Act)) (k' : α × σ → C (β × σ))
    (hk : ∀ r s log, dropLog (k (r, s, log)) = k' (r, s)) : dropLog (x >>= k) = y >>= k' := by
  subst h
  cases x with
  | error e => rfl
  | ok q => exact hk q.1 q.2.1 q.2.2

theorem bind_dropLog3 {α β γ : Type} (x : C (α × σ × List Act)) (y : C (α × σ)) (h : dropLog x = y) (k : α × σ × List Act → C (β × γ × σ × List Act)) (k' : α × σ → C (β × γ × σ))
    (hk : ∀ r s log, dropLog3 (k (r, s, log)) = k' (r, s)) : dropLog3 (x >>= k) = y >>= k' := by
  subst h
  cases x with
  | error e => rfl
  | ok q => exact hk q.1 q.2.1 q.2.2

theorem purge_passive (s : σ) (log : List Act) : dropLog (o.logged.purge (s, log)) = o.purge s := by
  rw [logged_purge_eq]
  cases o.purge s <;> rfl

theorem probeSelected_passive (s : σ) (log : List Act) : dropLog3 (probeSelected o.logged (s, log)) = probeSelected o s := by
  unfold probeSelected
  refine bind_dropLog3 _ _ (sendRequest_passive o s log 0xFD) _ _ (fun r s log => ?_)
  dsimp only
  by_cases hr : r = -1
  · rw [if_pos hr, if_pos hr]; rfl
  rw [if_neg hr, if_neg hr, logged_recv_eq]
  cases hv : o.recv s Frame.zero with
  | error e => rfl
  | ok q =>
    obtain ⟨c, g, s2⟩ := q
    simp only [ok_bind]
    by_cases ht : c = RECV_TIMEOUT
    · rw [if_pos ht, if_pos ht]; rfl
    rw [if_neg ht, if_neg ht]
    by_cases hi : c = RECV_INVALID
    · rw [if_pos hi, if_pos hi]
      exact bind_dropLog3 _ _ (purge_passive o _ _) _ _ (fun r s log => rfl)
    rw [if_neg hi, if_neg hi]
    refine bind_dropLog3 _ _ (purge_passive o _ _) _ _ (fun r s log => ?_)
    dsimp only
    by_cases hp : r ≠ 0
    · rw [if_pos hp, if_pos hp]; rfl
    rw [if_neg hp, if_neg hp]
    by_cases hl : g.type = TYPE_LONG
    · rw [if_pos hl, if_pos hl]
      cases getSecondaryAddress g with
      | error e => rfl
      | ok x => cases x <;> rfl
    · rw [if_neg hl, if_neg hl]; rfl

theorem probeLoop_passive (m : List Byte) (n : Nat) : ∀ (ret : Int) (s : σ) (log : List Act),
    dropLog3 (probeLoop o.logged (s, log) m ret n) = probeLoop o s m ret n := by
  induction n with
  | zero => intro ret s log; rfl
  | succ n ih =>
    intro ret s log
    rw [probeLoop, probeLoop]
    refine bind_dropLog3 _ _ (select_passive o s log m) _ _ (fun r s log => ?_)
    dsimp only
    by_cases h1 : r = PROBE_SINGLE
    · rw [if_pos h1, if_pos h1]; exact probeSelected_passive o s log
    rw [if_neg h1, if_neg h1]
    by_cases h2 : r = PROBE_ERROR ∨ r = PROBE_COLLISION
    · rw [if_pos h2, if_pos h2]; rfl
    rw [if_neg h2, if_neg h2]
    exact ih r s log

theorem probe_passive (st : Settings) (s : σ) (log : List Act) (m : List Byte) :
    dropLog3 (probeSecondary o.logged st (s, log) m) = probeSecondary o st s m := by
  unfold probeSecondary
  by_cases hl : m.length ≠ 16
  · rw [if_pos hl, if_pos hl]; rfl
  rw [if_neg hl, if_neg hl]
  exact probeLoop_passive o m _ 0 s log

theorem bind_dropLog' {α β γ : Type} (x : C (α × β × σ × List Act)) (y : C (α × β × σ)) (h : dropLog3 x = y) (k : α × β × σ × List Act → C (γ × σ × List Act)) (k' : α × β × σ → C (γ × σ))
    (hk : ∀ r a s log, dropLog (k (r, a, s, log)) = k' (r, a, s)) : dropLog (x >>= k) = y >>= k' := by
  subst h
  cases x with
  | error e => rfl
  | ok q => exact hk q.1 q.2.1 q.2.2.1 q.2.2.2

theorem scanLoop_passive (st : Settings) (p : Nat) (sub : σ × List Act → List Byte → C (Int × σ × List Act)) (sub' : σ → List Byte → C (Int × σ))
    (hsub : ∀ s log m, dropLog (sub (s, log) m) = sub' s m) (ds : List Byte) : ∀ (m : List Byte) (s : σ) (log : List Act),
    dropLog (scanLoop o.logged st p sub m ds (s, log)) = scanLoop o st p sub' m ds s := by
  induction ds with
  | nil => intro m s log; rfl
  | cons d ds ih =>
    intro m s log
    rw [scanLoop, scanLoop]
    refine bind_dropLog' _ _ (probe_passive o st _ _ _) _ _ (fun r a s log => ?_)
    dsimp only
    by_cases h1 : r = PROBE_SINGLE
    · rw [if_pos h1, if_pos h1]; exact ih _ s log
    rw [if_neg h1, if_neg h1]
    by_cases h2 : r = PROBE_COLLISION
    · rw [if_pos h2, if_pos h2]
      exact bind_dropLog _ _ (hsub s log _) _ _ (fun r s log => ih _ s log)
    rw [if_neg h2, if_neg h2]
    by_cases h3 : r = PROBE_NOTHING
    · rw [if_pos h3, if_pos h3]; exact ih _ s log
    · rw [if_neg h3, if_neg h3]; rfl

theorem scanAt_passive (st : Settings) (n : Nat) : ∀ (m : List Byte) (s : σ) (log : List Act),
    dropLog (scanAt o.logged st n (s, log) m) = scanAt o st n s m := by
  induction n with
  | zero => intro m s log; rfl
  | succ n ih =>
    intro m s log
    rw [scanAt, scanAt]
    cases rd m (15 - n) with
    | error e => rfl
    | ok c =>
      simp only [ok_bind]
      by_cases h1 : c = 102 ∨ c = 70
      · rw [if_pos h1, if_pos h1]; exact scanLoop_passive o st _ _ _ (fun s log m => ih m s log) _ m s log
      rw [if_neg h1, if_neg h1]
      by_cases h2 : 15 - n < 15
      · rw [if_pos h2, if_pos h2]
        exact bind_dropLog _ _ (ih m s log) _ _ (fun r s log => rfl)
      · rw [if_neg h2, if_neg h2]; exact scanLoop_passive o st _ _ _ (fun s log m => ih m s log) _ m s log

theorem scan_passive (st : Settings) (s : σ) (log : List Act) (pos : Int) (m : List Byte) :
    dropLog (scanRange o.logged st (s, log) pos m) = scanRange o st s pos m := by
  unfold scanRange
  by_cases hl : m.length ≠ 16
  · rw [if_pos hl, if_pos hl]; rfl
  rw [if_neg hl, if_neg hl]
  by_cases hp : pos < 0 ∨ pos ≥ 16
  · rw [if_pos hp, if_pos hp]; rfl
  rw [if_neg hp, if_neg hp]
  exact scanAt_passive o st _ m s log

end
end Mbus
