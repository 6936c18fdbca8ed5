import Verif.Spec.Select
import Verif.Lemmas.Logged
import Verif.Props.Address
import Verif.Lemmas.Session
namespace Mbus
open Spec

theorem sendSelect_log {σ : Type} (o : Ops σ) (s : σ) (log : List Act) (mask : List Byte) (r : Int) (s' : σ × List Act)
    (h : sendSelect o.logged (s, log) mask = .ok (r, s')) :
    (¬ AddressMask mask ∧ r = -1 ∧ s' = (s, log)) ∨
    (AddressMask mask ∧ ∃ f c, SelectionFrame mask f ∧ s'.2 = log ++ [.sent f c] ∧ ((c = -1 ∧ r = -1) ∨ (c ≠ -1 ∧ r = 0))) := by
  unfold sendSelect at h
  by_cases hm : AddressMask mask
  · refine .inr ⟨hm, ?_⟩
    obtain ⟨d, h1, h2⟩ := selectPack_eq (frameNew TYPE_LONG) mask hm.1 hm.2
    rw [h1, ok_bind] at h
    simp only at h
    rw [if_neg (by decide), logged_send_eq] at h
    have hf : SelectionFrame mask { frameNew TYPE_LONG with control := 0x73, address := 0xFD, ci := 0x52, dataSize := 8, data := d } := by
      have hlen : (selBytes mask).length = 8 := by rw [← h2]; simp
      refine ⟨selBytes mask, hlen, ⟨?_, rfl, rfl, rfl, hlen.symm, h2⟩, fun hid => selBytes_eq mask hm.1 hm.2 hid⟩
      rw [if_neg (by intro h0; rw [h0] at hlen; simp at hlen)]
      rfl
    generalize ({ frameNew TYPE_LONG with control := 0x73, address := 0xFD, ci := 0x52, dataSize := 8, data := d } : Frame) = f at h hf
    cases hs : o.send s f with
    | error e => rw [hs] at h; cases h
    | ok q =>
      obtain ⟨c, f', s1⟩ := q
      rw [hs] at h
      simp only [ok_bind] at h
      by_cases hc : c = -1
      · rw [if_pos hc] at h; cases h; exact ⟨f, c, hf, rfl, .inl ⟨hc, rfl⟩⟩
      · rw [if_neg hc] at h; cases h; exact ⟨f, c, hf, rfl, .inr ⟨hc, rfl⟩⟩
  · refine .inl ⟨hm, ?_⟩
    have : isSecondaryAddress mask = false := by
      cases hs : isSecondaryAddress mask with
      | false => rfl
      | true => exact absurd (((C52_address_validation mask 0).1).mp hs) hm
    rw [selectPack_bad _ _ this] at h
    simp only [ok_bind, if_true] at h
    cases h
    exact ⟨rfl, rfl⟩

theorem select_log {σ : Type} (o : Ops σ) (s : σ) (log : List Act) (mask : List Byte) (r : Int) (s' : σ × List Act)
    (h : selectSecondary o.logged (s, log) mask = .ok (r, s')) :
    ∃ l, s'.2 = log ++ l ∧ Selection mask r l ∧ ∀ rc g, Act.received rc g ∈ l → ∃ s1 s2, o.recv s1 Frame.zero = .ok (rc, g, s2) := by
  have none : ∀ {rc g}, Act.received rc g ∈ ([] : List Act) → ∃ s1 s2, o.recv s1 Frame.zero = .ok (rc, g, s2) := fun h => by cases h
  have noneS : ∀ {rc g f c}, Act.received rc g ∈ [Act.sent f c] → ∃ s1 s2, o.recv s1 Frame.zero = .ok (rc, g, s2) := fun h => by simp at h
  unfold selectSecondary at h
  by_cases hl : mask.length ≠ 16
  · rw [if_pos hl] at h
    cases h
    exact ⟨[], by simp, .malformed (fun hm => hl hm.1), fun _ _ => none⟩
  rw [if_neg hl, bind_eq_ok] at h
  obtain ⟨⟨c0, s1⟩, h1, h⟩ := h
  simp only at h
  rcases sendSelect_log o s log mask _ _ h1 with ⟨hm, rfl, rfl⟩ | ⟨hm, f, c, hf, hlog, hc⟩
  · rw [if_pos rfl] at h
    cases h
    exact ⟨[], by simp, .malformed hm, fun _ _ => none⟩
  rcases hc with ⟨rfl, rfl⟩ | ⟨hc, rfl⟩
  · rw [if_pos rfl] at h
    cases h
    exact ⟨_, hlog, .sendFailed f hm hf, fun _ _ => noneS⟩
  rw [if_neg (by decide)] at h
  obtain ⟨s1, log1⟩ := s1
  simp only at hlog
  subst hlog
  rw [logged_recv_eq] at h
  cases hr : o.recv s1 Frame.zero with
  | error e => rw [hr] at h; cases h
  | ok q =>
    obtain ⟨rc, g, s2⟩ := q
    rw [hr] at h
    simp only [ok_bind] at h
    have one : ∀ rc' g', Act.received rc' g' ∈ [Act.sent f c, .received rc g] → ∃ s1 s2, o.recv s1 Frame.zero = .ok (rc', g', s2) := by
      intro rc' g' hm
      simp only [List.mem_cons, reduceCtorEq, Act.received.injEq, List.not_mem_nil, or_false, false_or] at hm
      obtain ⟨rfl, rfl⟩ := hm
      exact ⟨_, _, hr⟩
    have two : ∀ p rc' g', Act.received rc' g' ∈ [Act.sent f c, .received rc g, .purged p] → ∃ s1 s2, o.recv s1 Frame.zero = .ok (rc', g', s2) := by
      intro p rc' g' hm
      simp only [List.mem_cons, reduceCtorEq, Act.received.injEq, List.not_mem_nil, or_false, false_or] at hm
      obtain ⟨rfl, rfl⟩ := hm
      exact ⟨_, _, hr⟩
    by_cases ht : rc = RECV_TIMEOUT
    · rw [if_pos ht] at h
      cases h
      exact ⟨[.sent f c, .received rc g], by simp only [List.append_assoc, List.cons_append, List.nil_append], by subst ht; exact .silence f c g hm hf hc, one⟩
    rw [if_neg ht] at h
    by_cases hi : rc = RECV_INVALID
    · rw [if_pos hi, logged_purge_eq] at h
      cases hp : o.purge s2 with
      | error e => rw [hp] at h; cases h
      | ok q =>
        obtain ⟨p, s3⟩ := q
        rw [hp] at h
        simp only [ok_bind] at h
        cases h
        refine ⟨[.sent f c, .received rc g, .purged p], by simp only [List.append_assoc, List.cons_append, List.nil_append], ?_, two p⟩
        subst hi
        exact .garbage f c g p hm hf hc
    rw [if_neg hi] at h
    by_cases ha : g.type = TYPE_ACK
    · rw [if_pos ha, logged_purge_eq] at h
      cases hp : o.purge s2 with
      | error e => rw [hp] at h; cases h
      | ok q =>
        obtain ⟨p, s3⟩ := q
        rw [hp] at h
        simp only [ok_bind] at h
        by_cases hp0 : p ≠ 0
        · rw [if_pos hp0] at h
          cases h
          exact ⟨[.sent f c, .received rc g, .purged p], by simp only [List.append_assoc, List.cons_append, List.nil_append], .crowd f c rc g p hm hf hc ht hi ha hp0, two p⟩
        · rw [if_neg hp0] at h
          cases h
          refine ⟨[.sent f c, .received rc g, .purged p], by simp only [List.append_assoc, List.cons_append, List.nil_append], ?_, two p⟩
          have : p = 0 := by omega
          subst this
          exact .single f c rc g hm hf hc ht hi ha
    · rw [if_neg ha] at h
      cases h
      exact ⟨[.sent f c, .received rc g], by simp only [List.append_assoc, List.cons_append, List.nil_append], .other f c rc g hm hf hc ht hi ha, one⟩

theorem request_log {σ : Type} (o : Ops σ) (s : σ) (log : List Act) (a : Int) (r : Int) (s' : σ × List Act)
    (h : sendRequest o.logged (s, log) a = .ok (r, s')) :
    (¬ (0 ≤ a ∧ a ≤ 255) ∧ r = -1 ∧ s' = (s, log)) ∨
    ((0 ≤ a ∧ a ≤ 255) ∧ ∃ f c, Carries f (.short 0x5B (UInt8.ofNat a.toNat)) ∧ s'.2 = log ++ [.sent f c] ∧ ((c = -1 ∧ r = -1) ∨ (c ≠ -1 ∧ r = 0))) := by
  unfold sendRequest at h
  by_cases ha : isPrimaryAddress a = false
  · rw [if_pos ha] at h
    cases h
    refine .inl ⟨fun h => ?_, rfl, rfl⟩
    rw [(isPrimary_iff a).mpr h] at ha; cases ha
  · rw [if_neg ha] at h
    have ha' := (isPrimary_iff a).mp (by simpa using ha)
    refine .inr ⟨ha', ?_⟩
    simp only [logged_send_eq] at h
    have hf : Carries { frameNew TYPE_SHORT with control := MASK_REQ_UD2 ||| MASK_DIR_M2S, address := UInt8.ofNat a.toNat }
      (.short 0x5B (UInt8.ofNat a.toNat)) := ⟨rfl, rfl, rfl⟩
    generalize ({ frameNew TYPE_SHORT with control := MASK_REQ_UD2 ||| MASK_DIR_M2S, address := UInt8.ofNat a.toNat } : Frame) = f at h hf
    cases hs : o.send s f with
    | error e => rw [hs] at h; cases h
    | ok q =>
      obtain ⟨c, f', s1⟩ := q
      rw [hs] at h
      simp only [ok_bind] at h
      by_cases hc : c = -1
      · rw [if_pos hc] at h; cases h; exact ⟨f, c, hf, rfl, .inl ⟨hc, rfl⟩⟩
      · rw [if_neg hc] at h; cases h; exact ⟨f, c, hf, rfl, .inr ⟨hc, rfl⟩⟩

theorem selection_single_length {mask : List Byte} {l : List Act} (h : Selection mask 1 l) : l.length = 3 := by
  generalize hr : (1 : Int) = r at h
  cases h <;> first | rfl | (exact absurd hr (by decide))

theorem selection_length {mask : List Byte} {r : Int} {l : List Act} (h : Selection mask r l) : l.length ≤ 3 := by
  cases h <;> simp

theorem selection_code {mask : List Byte} {r : Int} {l : List Act} (h : Selection mask r l) : r = 0 ∨ r = 1 ∨ r = 2 ∨ r = -1 := by
  cases h <;> simp

/-- purging returns 0 or 1 -/
theorem purgeLoop_one {σ : Type} (l : Link σ) (purge : Int) (r : Int) (s' : σ) (n : Nat) : ∀ (s : σ) (f : Frame), l.pending s ≤ n →
    purgeLoop l purge s f 1 = .ok (r, s') → r = 1 := by
  induction n with
  | zero =>
    intro s f hn h
    rw [purgeLoop] at h
    split at h
    · cases h
    · next c f1 s1 h1 =>
      by_cases hc : c ≠ RECV_OK ∧ c ≠ RECV_INVALID
      · rw [dif_pos hc] at h; cases h; rfl
      · have := recvFrame_lt l purge s f _ _ _ h1 (by
          by_cases h0 : c = RECV_OK
          · exact .inl h0
          · exact .inr (Decidable.byContradiction fun h1 => hc ⟨h0, h1⟩))
        omega
  | succ n ih =>
    intro s f hn h
    rw [purgeLoop] at h
    split at h
    · cases h
    · next c f1 s1 h1 =>
      by_cases hc : c ≠ RECV_OK ∧ c ≠ RECV_INVALID
      · rw [dif_pos hc] at h; cases h; rfl
      · rw [dif_neg hc] at h
        have := recvFrame_lt l purge s f _ _ _ h1 (by
          by_cases h0 : c = RECV_OK
          · exact .inl h0
          · exact .inr (Decidable.byContradiction fun h1 => hc ⟨h0, h1⟩))
        exact ih s1 f1 (by omega) h

/-- the observed selection is the selection -/
theorem select_logged {σ : Type} (o : Ops σ) (s : σ) (log : List Act) (mask : List Byte) :
    (match selectSecondary o.logged (s, log) mask with | .error e => .error e | .ok (r, s') => .ok (r, s'.1)) = selectSecondary o s mask := by
  unfold selectSecondary
  by_cases hl : mask.length ≠ 16
  · rw [if_pos hl, if_pos hl]
  rw [if_neg hl, if_neg hl]
  unfold sendSelect
  cases hp : selectPack (frameNew TYPE_LONG) mask with
  | error e => rfl
  | ok q =>
    obtain ⟨r, f⟩ := q
    simp only [ok_bind]
    by_cases hr : r = -1
    · rw [if_pos hr, if_pos hr]; rfl
    rw [if_neg hr, if_neg hr, logged_send_eq]
    cases hs : o.send s f with
    | error e => rfl
    | ok q =>
      obtain ⟨c, f', s1⟩ := q
      simp only [ok_bind]
      by_cases hc : c = -1
      · rw [if_pos hc, if_pos hc]; rfl
      rw [if_neg hc, if_neg hc]
      simp only [ok_bind]
      rw [if_neg (by decide), if_neg (by decide), logged_recv_eq]
      cases hv : o.recv s1 Frame.zero with
      | error e => rfl
      | ok q =>
        obtain ⟨rc, g, s2⟩ := q
        simp only [ok_bind]
        by_cases ht : rc = RECV_TIMEOUT
        · rw [if_pos ht, if_pos ht]
        rw [if_neg ht, if_neg ht]
        by_cases hi : rc = RECV_INVALID
        · rw [if_pos hi, if_pos hi, logged_purge_eq]
          cases hpu : o.purge s2 with
          | error e => rfl
          | ok q => rfl
        rw [if_neg hi, if_neg hi]
        by_cases ha : g.type = TYPE_ACK
        · rw [if_pos ha, if_pos ha, logged_purge_eq]
          cases hpu : o.purge s2 with
          | error e => rfl
          | ok q =>
            obtain ⟨p, s3⟩ := q
            simp only [ok_bind]
            by_cases hp0 : p ≠ 0
            · rw [if_pos hp0, if_pos hp0]
            · rw [if_neg hp0, if_neg hp0]
        · rw [if_neg ha, if_neg ha]

end Mbus
